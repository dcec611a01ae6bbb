import Verif.Model.Load
import Verif.Model.Store
import Verif.Model.Add
import Verif.Model.Sub
import Verif.Model.Mul
import Verif.Model.Move
import Verif.Model.Shift
import Verif.Model.Convert
import Verif.Model.Perm
import Verif.Model.Logic
import Verif.Model.Rest
import Verif.Model.Recip
