/-
C81: the comparison functions of the project's tests decide what they are used to decide.
-/
import Verif.Model.TestUtil
import Verif.Props.QSub64
import Verif.FpStep

namespace Verif.Props
open Verif.Model Verif.Spec Verif.FpOps Verif.FpRound

/-! ## The loop -/

theorem forRetFrom_none {ρ : Type} (body : Int → C (Option ρ)) (n i : Nat) :
    forRetFrom body n i = .ok none ↔ ∀ k, k < n → body ((i + k : Nat) : Int) = .ok none := by
  induction n generalizing i with
  | zero => simp [forRetFrom]
  | succ n ih =>
    rw [forRetFrom]
    constructor
    · intro h k hk
      cases hb : body i with
      | ok o =>
        rw [hb] at h
        cases o with
        | some r => simp [bind, C.bind'] at h
        | none =>
          have h := (ih (i + 1)).1 h
          cases k with
          | zero => exact hb
          | succ k => rw [show i + (k + 1) = i + 1 + k by omega]; exact h k (by omega)
      | _ => rw [hb] at h; cases h
    · intro h
      have h0 : body (i : Nat) = .ok none := h 0 (by omega)
      rw [h0]
      exact (ih (i + 1)).2 fun k hk => by
        rw [show i + 1 + k = i + (k + 1) by omega]
        exact h (k + 1) (by omega)

theorem forRetFrom_other {ρ : Type} (body : Int → C (Option ρ)) (n i : Nat) (x : C (Option ρ)) (hx : x ≠ .ok none) :
    forRetFrom body n i = x ↔
      ∃ k, k < n ∧ (∀ l, l < k → body ((i + l : Nat) : Int) = .ok none) ∧ body ((i + k : Nat) : Int) = x := by
  induction n generalizing i with
  | zero =>
    rw [forRetFrom]
    exact iff_of_false (Ne.symm hx) fun ⟨k, hk, _⟩ => absurd hk (by omega)
  | succ n ih =>
    rw [forRetFrom]
    have step : body (i : Nat) ≠ .ok none →
        ((∃ k, k < n + 1 ∧ (∀ l, l < k → body ((i + l : Nat) : Int) = .ok none) ∧ body ((i + k : Nat) : Int) = x) ↔
          body (i : Nat) = x) := by
      intro hb
      constructor
      · rintro ⟨k, -, h, e⟩
        cases k with
        | zero => exact e
        | succ k => exact absurd (h 0 (by omega)) hb
      · exact fun e => ⟨0, by omega, fun l hl => absurd hl (by omega), e⟩
    cases hb : body i with
    | ok o =>
      cases o with
      | some r =>
        rw [step (by rw [hb]; simp), hb]
        rfl
      | none =>
        refine (ih (i + 1)).trans ⟨?_, ?_⟩
        · rintro ⟨k, hk, h, e⟩
          refine ⟨k + 1, by omega, fun l hl => ?_, by rw [show i + (k + 1) = i + 1 + k by omega]; exact e⟩
          cases l with
          | zero => exact hb
          | succ l => rw [show i + (l + 1) = i + 1 + l by omega]; exact h l (by omega)
        · rintro ⟨k, hk, h, e⟩
          cases k with
          | zero => exact absurd (e.symm.trans hb) hx
          | succ k =>
            refine ⟨k, by omega, fun l hl => ?_, by rw [show i + 1 + k = i + (k + 1) by omega]; exact e⟩
            rw [show i + 1 + l = i + (l + 1) by omega]
            exact h (l + 1) (by omega)
    | abort m => rw [step (by rw [hb]; simp), hb]; rfl
    | ub u => rw [step (by rw [hb]; simp), hb]; rfl
    | indet l => rw [step (by rw [hb]; simp), hb]; rfl

/-- The loop passes when no iteration returns. -/
theorem forRet_none {ρ : Type} {n : Nat} {body : Int → C (Option ρ)} {g : Fin n → C (Option ρ)}
    (hg : ∀ i : Fin n, body ((i.val : Nat) : Int) = g i) :
    forRet n body = .ok none ↔ ∀ i, g i = .ok none := by
  rw [forRet, forRetFrom_none]
  constructor
  · intro h i
    rw [← hg, ← h i.val i.isLt, Nat.zero_add]
  · intro h k hk
    rw [Nat.zero_add, hg ⟨k, hk⟩]
    exact h _

/-- Any other outcome is the one of the first iteration that does not pass. -/
theorem forRet_other {ρ : Type} {n : Nat} {body : Int → C (Option ρ)} {g : Fin n → C (Option ρ)}
    (hg : ∀ i : Fin n, body ((i.val : Nat) : Int) = g i) (x : C (Option ρ)) (hx : x ≠ .ok none) :
    forRet n body = x ↔ ∃ i, (∀ j, j < i → g j = .ok none) ∧ g i = x := by
  rw [forRet, forRetFrom_other _ _ _ _ hx]
  constructor
  · rintro ⟨k, hk, h, e⟩
    refine ⟨⟨k, hk⟩, fun j hj => ?_, ?_⟩
    · rw [← hg, ← h j.val hj, Nat.zero_add]
    · rw [← hg, ← e, Nat.zero_add]
  · rintro ⟨i, h, e⟩
    refine ⟨i.val, i.isLt, fun l hl => ?_, ?_⟩
    · rw [Nat.zero_add, hg ⟨l, by omega⟩]
      exact h _ hl
    · rw [Nat.zero_add, hg i]
      exact e

theorem forRet_cases {ρ : Type} {n : Nat} {body : Int → C (Option ρ)} {g : Fin n → C (Option ρ)}
    (hg : ∀ i : Fin n, body ((i.val : Nat) : Int) = g i) {u : UB} (h : ∀ i, (∃ o, g i = .ok o) ∨ g i = .ub u) :
    (∃ o, forRet n body = .ok o) ∨ forRet n body = .ub u := by
  by_cases hx : forRet n body = .ok none
  · exact .inl ⟨_, hx⟩
  · obtain ⟨i, -, e⟩ := (forRet_other hg _ hx).1 rfl
    rw [← e]
    exact h i

theorem forRet_ok {ρ : Type} {n : Nat} {body : Int → C (Option ρ)} {g : Fin n → C (Option ρ)}
    (hg : ∀ i : Fin n, body ((i.val : Nat) : Int) = g i) (h : ∀ i, ∃ o, g i = .ok o) :
    ∃ o, forRet n body = .ok o := by
  by_cases hx : forRet n body = .ok none
  · exact ⟨_, hx⟩
  · obtain ⟨i, -, e⟩ := (forRet_other hg _ hx).1 rfl
    rw [← e]
    exact h i

/-! ## Specification -/

/-- The absolute value of a datum. -/
def Datum.mag : Datum → Datum
  | .nan => .nan
  | .inf _ => .inf false
  | .num _ x => .num false |x|

/-- `d` is the distance of two floating-point data, with the difference rounded to the format `f`. -/
def IsDist (f : Fmt) : Datum → Datum → Datum → Prop
  | .nan, _, d => d = .nan
  | _, .nan, d => d = .nan
  | .inf s, .inf t, d => d = if s = t then .nan else .inf false
  | .inf _, .num _ _, d => d = .inf false
  | .num _ _, .inf _, d => d = .inf false
  | .num _ x, .num _ y, d => ∃ r, Rounded f false (x - y) r ∧ d = Datum.mag (decode f r)

/-- The distance of `x` and `y`, computed in the format `f`, is greater than `eps`. -/
def FarApart (f : Fmt) (eps x y : Datum) : Prop := ∃ d, IsDist f x y d ∧ eps.Less d

/-- The datum can be converted to `int`: it is a number whose integral part fits, and `n` is that part. -/
def IsInt (x : Datum) (n : Int) : Prop :=
  ∃ s v, x = .num s v ∧ IsTrunc v n ∧ -2147483648 ≤ n ∧ n ≤ 2147483647

/-- A lane that passes with tolerance zero: either datum is not a number, or they are equal. -/
def NanOrEqual (x y : Datum) : Prop := x = .nan ∨ y = .nan ∨ x.Equal y

/-! ## One lane -/

theorem decode_abs {f : Fmt} (ok : Ok f) (b : Nat) : decode f (f.abs b) = Datum.mag (decode f b) := by
  have h1 : f.abs (f.abs b) = f.abs b := Nat.mod_mod _ _
  have h2 : signField f (f.abs b) = false := by
    have := abs_lt (f := f) b
    rw [neg_eq (by rw [width_eq]; omega)]
    simpa [Fmt.neg] using this
  rw [decode_eq ok, decode_eq ok b, h1, h2]
  split
  · rfl
  · split
    · rfl
    · simp only [Datum.mag]
      congr 1
      rw [withSign_abs _ (by positivity)]
      rfl

theorem fabs64 (b : BitVec 64) : (b &&& 0x7fffffffffffffff#64).toNat = Fmt.b64.abs b.toNat := by
  rw [BitVec.toNat_and]
  exact Nat.and_two_pow_sub_one_eq_mod b.toNat 63
theorem fabs32 (b : BitVec 32) : (b &&& 0x7fffffff#32).toNat = Fmt.b32.abs b.toNat := by
  rw [BitVec.toNat_and]
  exact Nat.and_two_pow_sub_one_eq_mod b.toNat 31

section
variable [Dialect]

/-- One iteration, given the two lanes. -/
def laneBody (i : Int) (expected actual : Val) (eps : BitVec 64) : C (Option Report) := do
  let diff := stdFabs (← Val.sub (← Val.cast .f64 expected) (← Val.cast .f64 actual))
  if Val.gt diff (.f64 eps) then
    let a ← Val.cast .s32 actual
    let e ← Val.cast .s32 expected
    pure (some ⟨i, intVal a, intVal e, diff.toF64, eps⟩)
  else pure none

theorem laneBody_of {i : Int} {g k : C Val} {x y : Val} {eps : BitVec 64} (hg : g = .ok x) (hk : k = .ok y) :
    (do
      let diff := stdFabs (← Val.sub (← Val.cast .f64 (← g)) (← Val.cast .f64 (← k)))
      if Val.gt diff (.f64 eps) then
        let a ← Val.cast .s32 (← k)
        let e ← Val.cast .s32 (← g)
        pure (some ⟨i, intVal a, intVal e, diff.toF64, eps⟩)
      else pure none : C (Option Report)) = laneBody i x y eps := by
  subst hg hk
  rfl

theorem laneBody_int (i : Int) (t : ITy) (x y : Int) (eps : BitVec 64)
    (ht : ITy.i32.lo ≤ t.lo ∧ t.hi ≤ ITy.i32.hi) (hx : x.natAbs ≤ 2 ^ 52) (hy : y.natAbs ≤ 2 ^ 52) :
    ∃ d : BitVec 64, decode .b64 d.toNat = .num false |(x : ℚ) - y| ∧
      laneBody i (.int t x) (.int t y) eps = if Fmt.b64.lt eps.toNat d.toNat = true
        then .ok (some ⟨i, y, x, d, eps⟩) else .ok none := by
  obtain ⟨s, hs⟩ := (doubleDiff_exact (x := x) (y := y) (by omega) (by omega) (by omega)).bits
  refine ⟨BitVec.ofNat 64 (subBits x y) &&& 0x7fffffffffffffff#64, ?_, ?_⟩
  · rw [fabs64, decode_abs ok64, nat64 (subBits_lt x y), hs]
    simp [Datum.mag]
  · have e (v : Int) : Val.cast .s32 (.int t v) = .ok (.int .i32 v) := by
      show C.ok (Val.int .i32 (t.conv .i32 v)) = _
      rw [ITy.conv, if_pos ht]
    have hsub : Val.sub (.f64 (Val.int t x).toF64) (.f64 (Val.int t y).toF64) =
        .ok (.f64 (BitVec.ofNat 64 (subBits x y))) := by
      show C.ok (Val.f64 (BitVec.ofNat 64 (Fmt.b64.sub (BitVec.ofNat 64 _).toNat (BitVec.ofNat 64 _).toNat))) = _
      rw [nat64 (ofInt_lt x), nat64 (ofInt_lt y)]
      rfl
    unfold laneBody
    simp only [Val.cast, bind, C.bind', hsub]
    show (if Fmt.b64.lt eps.toNat _ = true then _ else _) = _
    split
    · simp only [ITy.conv, if_pos ht]
      rfl
    · rfl

end

/-- Pattern zero is zero. -/
theorem decode_zero {f : Fmt} (ok : Ok f) : decode f 0 = .num false 0 := by
  exact decode_pack_zero ok false

theorem isDist_unique {f : Fmt} (ok : Ok f) {x y d d' : Datum} (h : IsDist f x y d) (h' : IsDist f x y d') : d = d' := by
  cases x <;> cases y <;> simp only [IsDist] at h h' <;> try (rw [h, h'])
  obtain ⟨r, h, rfl⟩ := h
  obtain ⟨r', h', rfl⟩ := h'
  rw [rounded_unique ok h h']

/-- Clearing the sign of a difference gives the distance. -/
theorem isDist_of_diff {f : Fmt} (ok : Ok f) {a b r : Nat} (h : IsDiff f a b r) :
    IsDist f (decode f a) (decode f b) (Datum.mag (decode f r)) := by
  unfold IsDiff at h
  cases ha : decode f a <;> cases hb : decode f b <;> simp only [ha, hb] at h
  case num.num s x t y =>
    by_cases h0 : x - y = 0
    · rw [Rounded, if_pos h0] at h
      rw [h]
      refine ⟨0, ?_, ?_⟩
      · rw [Rounded, if_pos h0, decode_zero ok]
      · rw [decode_zero ok]
        simp [Datum.mag]
    · refine ⟨r, ?_, rfl⟩
      unfold Rounded at h ⊢
      rw [if_neg h0] at h ⊢
      exact h
  case inf.inf s t =>
    rw [h]
    simp only [IsDist]
    split <;> rfl
  all_goals (rw [h]; rfl)

theorem dist_exists {x y : BitVec 32} : ∃ d, IsDist .b32 (decode .b32 x.toNat) (decode .b32 y.toNat) d :=
  ⟨_, isDist_of_diff ok32 (isDiff_sub ok32 (lt32 x) (lt32 y))⟩

/-- The smallest distance of two unequal `float` numbers. -/
theorem apart {s t : Bool} {x y : ℚ} {a b : Nat} (ha : decode .b32 a = .num s x) (hb : decode .b32 b = .num t y)
    (h : x ≠ y) : 1 / 2 ^ 149 ≤ |x - y| := by
  have ea := decode_num ok32 ha
  have eb := decode_num ok32 hb
  rw [unit32] at ea eb
  have key (s : Bool) (n : Nat) : ∃ m : ℤ, withSign s ((n : ℚ) / 2 ^ 149) = m / 2 ^ 149 := by
    cases s
    · exact ⟨n, by simp [withSign]⟩
    · exact ⟨-n, by simp [withSign, neg_div]⟩
  obtain ⟨m, em⟩ := key s (magA Fmt.b32.mb (Fmt.b32.abs a))
  obtain ⟨n, en⟩ := key t (magA Fmt.b32.mb (Fmt.b32.abs b))
  rw [ea, eb, em, en] at h ⊢
  have hmn : m ≠ n := fun e => h (by rw [e])
  rw [← sub_div, abs_div, abs_of_pos (by positivity : (0 : ℚ) < 2 ^ 149)]
  apply div_le_div_of_nonneg_right _ (by positivity)
  have : 1 ≤ |m - n| := Int.one_le_abs (by omega)
  exact_mod_cast this

/-- A number not less than a number of the format does not round to zero. -/
theorem rounded_far {f : Fmt} (ok : Ok f) {z δ : ℚ} {b r : Nat} (hδ : 0 < δ) (hb : decode f b = .num false δ)
    (hbl : b < 2 ^ f.width) (hz : δ ≤ |z|) (h : Rounded f false z r) (s : Bool) : (Datum.num s 0).Less (Datum.mag (decode f r)) := by
  cases d : decode f r with
  | nan =>
    exfalso
    unfold Rounded at h
    split at h
    · rw [d] at h; cases h
    · by_cases ho : |z| < overflowAt f
      · obtain ⟨v, e, -⟩ := h.nearest ho
        rw [d] at e; cases e
      · have := h.overflow (not_lt.1 ho)
        rw [d] at this; cases this
  | inf t => simp [Datum.mag, Datum.Less]
  | num t v =>
    simp only [Datum.mag, Datum.Less]
    rcases le_or_gt 0 z with hs | hs
    · rw [abs_of_nonneg hs] at hz
      have := rounded_ge h d hb hz
      exact abs_pos.2 (by linarith [this] |> fun h : 0 < v => h.ne')
    · rw [abs_of_neg hs] at hz
      have hn := decode_negate ok hbl
      rw [hb] at hn
      have := rounded_le h d hn (by linarith)
      exact abs_pos.2 ((by linarith : v < 0).ne)

/-- With tolerance zero, two `float` data are far apart unless one is not a number or they are equal. -/
theorem farApart_zero {f : Fmt} (ok : Ok f) {b : Nat} (hb : decode f b = .num false (1 / 2 ^ 149))
    (hbl : b < 2 ^ f.width) {x y : Nat}
    (hd : ∃ d, IsDist f (decode .b32 x) (decode .b32 y) d) :
    FarApart f (.num false 0) (decode .b32 x) (decode .b32 y) ↔ ¬ NanOrEqual (decode .b32 x) (decode .b32 y) := by
  obtain ⟨d, hd⟩ := hd
  have : FarApart f (.num false 0) (decode .b32 x) (decode .b32 y) ↔ (Datum.num false 0).Less d :=
    ⟨fun ⟨d', h, l⟩ => isDist_unique ok h hd ▸ l, fun l => ⟨d, hd, l⟩⟩
  rw [this]
  cases hx : decode .b32 x <;> cases hy : decode .b32 y <;> rw [hx, hy] at hd <;> simp only [IsDist] at hd
  case num.num s u t v =>
    obtain ⟨r, hr, rfl⟩ := hd
    by_cases h : u = v
    · refine iff_of_false ?_ (fun hn => hn (.inr (.inr h)))
      unfold Rounded at hr
      rw [if_pos (by rw [h, sub_self])] at hr
      rw [hr]
      simp [Datum.mag, Datum.Less]
    · refine iff_of_true (rounded_far ok (by positivity) hb hbl (apart hx hy h) hr false) ?_
      rintro (h' | h' | h')
      · cases h'
      · cases h'
      · exact h h'
  case inf.inf s t =>
    subst hd
    cases s <;> cases t <;> simp [NanOrEqual, Datum.Less, Datum.Equal]
  all_goals
    subst hd
    simp [NanOrEqual, Datum.Less, Datum.Equal]

theorem tiny64 : ∃ b, decode .b64 b = .num false (1 / 2 ^ 149) ∧ b < 2 ^ Fmt.b64.width := by
  obtain ⟨b, h, e⟩ := representable ok64 false 1 925 (by decide +kernel) (by decide +kernel)
  refine ⟨b, e.trans ?_, h⟩
  rw [unit64, show (2 : ℚ) ^ 1074 = 2 ^ 925 * 2 ^ 149 by rw [← pow_add]]
  congr 1
  generalize (2 : ℚ) ^ 149 = k
  have h2 : (2 : ℚ) ^ 925 ≠ 0 := pow_ne_zero _ (by norm_num)
  generalize (2 : ℚ) ^ 925 = j at h2
  rw [withSign, if_neg (by decide), Nat.cast_one, div_mul_eq_div_div, one_mul, div_self h2]
theorem tiny32 : ∃ b, decode .b32 b = .num false (1 / 2 ^ 149) ∧ b < 2 ^ Fmt.b32.width := by
  obtain ⟨b, h, e⟩ := representable ok32 false 1 0 (by decide +kernel) (by decide +kernel)
  refine ⟨b, e.trans ?_, h⟩
  rw [unit32]
  simp [withSign]

/-- Converting a `float` to `double` keeps its datum. -/
theorem decode_wide (x : BitVec 32) : decode .b64 (Fmt.b32.convert .b64 x.toNat) = decode .b32 x.toNat := by
  have h := decode_convert ok32 ok64 (lt32 x)
  cases hx : decode .b32 x.toNat <;> simp only [hx] at h
  · exact h
  · exact h
  · exact widen_exact hx h

theorem isInt_iff (x : BitVec 32) (n : Int) : truncTo .i32 (Fmt.b32.trunc x.toNat) = .ok n ↔ IsInt (decode .b32 x.toNat) n := by
  have h := trunc_spec ok32 (lt32 x)
  cases hx : decode .b32 x.toNat <;> simp only [hx] at h
  case num s v =>
    obtain ⟨m, e, hm⟩ := h
    rw [e]
    simp only [truncTo]
    split
    · rename_i hr
      constructor
      · intro h
        cases h
        exact ⟨s, v, rfl, hm, hr⟩
      · rintro ⟨_, _, e', hm', -⟩
        cases e'
        rw [isTrunc_unique hm hm']
    · rename_i hr
      refine iff_of_false (by simp) ?_
      rintro ⟨_, _, e', hm', hr'⟩
      cases e'
      rw [isTrunc_unique hm hm'] at hr
      exact hr hr'
  all_goals
    rw [h]
    exact iff_of_false (by simp [truncTo]) (by rintro ⟨_, _, e, -⟩; cases e)

theorem truncTo_cases (o : Option Int) : (∃ n, truncTo .i32 o = .ok n) ∨ truncTo .i32 o = .ub .floatToInt := by
  cases o with
  | none => exact .inr rfl
  | some v =>
    simp only [truncTo]
    split
    · exact .inl ⟨v, rfl⟩
    · exact .inr rfl

/-- What happens in a lane whose distance has the pattern `d`. -/
def laneOut (i : Int) (x y : BitVec 32) (d eps : BitVec 64) : C (Option Report) :=
  if Fmt.b64.lt eps.toNat d.toNat = true then do
    let a ← truncTo .i32 (Fmt.b32.trunc y.toNat)
    let e ← truncTo .i32 (Fmt.b32.trunc x.toNat)
    .ok (some ⟨i, a, e, d, eps⟩)
  else .ok none

theorem laneOut_none {i : Int} {x y : BitVec 32} {d eps : BitVec 64} :
    laneOut i x y d eps = .ok none ↔ ¬ (decode .b64 eps.toNat).Less (decode .b64 d.toNat) := by
  rw [← lt_iff ok64 (lt64 _) (lt64 _)]
  unfold laneOut
  split
  · rename_i h
    refine iff_of_false ?_ (fun hn => hn h)
    rcases truncTo_cases (Fmt.b32.trunc y.toNat) with ⟨n, e⟩ | e <;> rw [e]
    · rcases truncTo_cases (Fmt.b32.trunc x.toNat) with ⟨m, e⟩ | e <;> rw [e] <;> simp [bind, C.bind']
    · simp [bind, C.bind']
  · rename_i h
    exact iff_of_true rfl h

theorem laneOut_some {i : Int} {x y : BitVec 32} {d eps : BitVec 64} {r : Report} :
    laneOut i x y d eps = .ok (some r) ↔ (decode .b64 eps.toNat).Less (decode .b64 d.toNat) ∧
      IsInt (decode .b32 y.toNat) r.actual ∧ IsInt (decode .b32 x.toNat) r.expected ∧
      r.index = i ∧ r.diff = d ∧ r.eps = eps := by
  rw [← lt_iff ok64 (lt64 _) (lt64 _), ← isInt_iff, ← isInt_iff]
  unfold laneOut
  split
  · rename_i h
    rcases truncTo_cases (Fmt.b32.trunc y.toNat) with ⟨n, e⟩ | e <;> rw [e]
    · rcases truncTo_cases (Fmt.b32.trunc x.toNat) with ⟨m, e⟩ | e <;> rw [e]
      · obtain ⟨a1, a2, a3, a4, a5⟩ := r
        simp [bind, C.bind', h]
        tauto
      · simp [bind, C.bind']
    · simp [bind, C.bind']
  · rename_i h
    simp [h]

theorem laneOut_ub {i : Int} {x y : BitVec 32} {d eps : BitVec 64} :
    laneOut i x y d eps = .ub .floatToInt ↔ (decode .b64 eps.toNat).Less (decode .b64 d.toNat) ∧
      ¬ ((∃ n, IsInt (decode .b32 y.toNat) n) ∧ ∃ n, IsInt (decode .b32 x.toNat) n) := by
  rw [← lt_iff ok64 (lt64 _) (lt64 _)]
  simp only [← isInt_iff]
  unfold laneOut
  split
  · rename_i h
    rcases truncTo_cases (Fmt.b32.trunc y.toNat) with ⟨n, e⟩ | e <;> rw [e]
    · rcases truncTo_cases (Fmt.b32.trunc x.toNat) with ⟨m, e⟩ | e <;> rw [e] <;> simp [bind, C.bind', h]
    · simp [bind, C.bind', h]
  · rename_i h
    simp [h]

theorem laneOut_cases (i : Int) (x y : BitVec 32) (d eps : BitVec 64) :
    (∃ o, laneOut i x y d eps = .ok o) ∨ laneOut i x y d eps = .ub .floatToInt := by
  unfold laneOut
  split
  · rcases truncTo_cases (Fmt.b32.trunc y.toNat) with ⟨n, e⟩ | e <;> rw [e]
    · rcases truncTo_cases (Fmt.b32.trunc x.toNat) with ⟨m, e⟩ | e <;> rw [e] <;> simp [bind, C.bind']
    · simp [bind, C.bind']
  · exact .inl ⟨_, rfl⟩

/-- The pattern of the distance in a lane of the register comparison. -/
def dist64 (x y : BitVec 32) : BitVec 64 :=
  BitVec.ofNat 64 (Fmt.b64.sub (Fmt.b32.convert .b64 x.toNat) (Fmt.b32.convert .b64 y.toNat)) &&& 0x7fffffffffffffff#64
/-- The pattern of the distance in a lane of the vector comparison. -/
def dist32 (x y : BitVec 32) : BitVec 64 :=
  BitVec.ofNat 64 (Fmt.b32.convert .b64 (BitVec.ofNat 32 (Fmt.b32.sub x.toNat y.toNat) &&& 0x7fffffff#32).toNat)

theorem isDist64 (x y : BitVec 32) :
    IsDist .b64 (decode .b32 x.toNat) (decode .b32 y.toNat) (decode .b64 (dist64 x y).toNat) := by
  have h := isDist_of_diff ok64 (isDiff_sub ok64 (convert_lt (f := .b32) ok64 x.toNat) (convert_lt (f := .b32) ok64 y.toNat))
  rw [decode_wide, decode_wide] at h
  unfold dist64
  rw [fabs64, decode_abs ok64, nat64 (sub_lt ok64 (convert_lt ok64 _) (convert_lt ok64 _))]
  exact h

theorem isDist32 (x y : BitVec 32) :
    IsDist .b32 (decode .b32 x.toNat) (decode .b32 y.toNat) (decode .b64 (dist32 x y).toNat) := by
  have h := isDist_of_diff ok32 (isDiff_sub ok32 (lt32 x) (lt32 y))
  unfold dist32
  rw [nat64 (convert_lt ok64 _), decode_wide, fabs32, decode_abs ok32, nat32 (sub_lt ok32 (lt32 _) (lt32 _))]
  exact h

theorem less_iff {f : Fmt} (ok : Ok f) {eps x y d : Datum} (h : IsDist f x y d) : eps.Less d ↔ FarApart f eps x y :=
  ⟨fun l => ⟨d, h, l⟩, fun ⟨_, h', l⟩ => isDist_unique ok h' h ▸ l⟩

theorem farApart_zero64 (x y : BitVec 32) :
    FarApart .b64 (.num false 0) (decode .b32 x.toNat) (decode .b32 y.toNat) ↔
      ¬ NanOrEqual (decode .b32 x.toNat) (decode .b32 y.toNat) := by
  obtain ⟨b, h, hl⟩ := tiny64
  exact farApart_zero ok64 h hl ⟨_, isDist64 x y⟩
theorem farApart_zero32 (x y : BitVec 32) :
    FarApart .b32 (.num false 0) (decode .b32 x.toNat) (decode .b32 y.toNat) ↔
      ¬ NanOrEqual (decode .b32 x.toNat) (decode .b32 y.toNat) := by
  obtain ⟨b, h, hl⟩ := tiny32
  exact farApart_zero ok32 h hl ⟨_, isDist32 x y⟩

theorem num_lt_overflow {f : Fmt} (ok : Ok f) {s : Bool} {c : ℚ} {b : Nat} (d : decode f b = .num s c) : |c| < overflowAt f := by
  have h := num_max ok d
  refine lt_of_le_of_lt h ?_
  rw [overflowAt_eq ok, div_lt_div_iff_of_pos_right (by positivity)]
  unfold thr
  have : (0 : ℚ) < 2 ^ (2 ^ f.eb - 3) := by positivity
  nlinarith

/-- Numbers whose exact distance is at most `eps` are not far apart in `double`. -/
theorem near_not_far {eps : BitVec 64} {s t u : Bool} {e x y : ℚ} (he : decode .b64 eps.toNat = .num s e)
    (h : |x - y| ≤ e) : ¬ FarApart .b64 (.num s e) (.num t x) (.num u y) := by
  rintro ⟨d, ⟨r, hr, rfl⟩, l⟩
  have hn := decode_negate ok64 (lt64 eps)
  rw [he] at hn
  have h0 : |x - y| < overflowAt .b64 := by
    by_contra hc
    rw [not_lt] at hc
    have := num_lt_overflow ok64 he
    linarith [le_abs_self e]
  obtain ⟨s', v, d⟩ := rounded_num hr h0
  rw [d] at l
  simp only [Datum.mag, Datum.Less] at l
  have h1 := rounded_le hr d he (le_trans (le_abs_self _) h)
  have h2 := rounded_ge hr d hn (by linarith [neg_abs_le (x - y)])
  exact absurd (abs_le.2 ⟨h2, h1⟩) (not_le.2 l)

section
variable [Dialect]
theorem laneBody_f32 (i : Int) (x y : BitVec 32) (eps : BitVec 64) :
    laneBody i (.f32 x) (.f32 y) eps = laneOut i x y (dist64 x y) eps := by
  have hsub : Val.sub (.f64 (Val.f32 x).toF64) (.f64 (Val.f32 y).toF64) =
      .ok (.f64 (BitVec.ofNat 64 (Fmt.b64.sub (Fmt.b32.convert .b64 x.toNat) (Fmt.b32.convert .b64 y.toNat)))) := by
    show C.ok (Val.f64 (BitVec.ofNat 64 (Fmt.b64.sub (BitVec.ofNat 64 _).toNat (BitVec.ofNat 64 _).toNat))) = _
    rw [nat64 (convert_lt ok64 _), nat64 (convert_lt ok64 _)]
  unfold laneBody laneOut
  simp only [Val.cast, bind, C.bind', hsub]
  show (if Fmt.b64.lt eps.toNat _ = true then _ else _) = _
  congr 1
  rcases truncTo_cases (Fmt.b32.trunc y.toNat) with ⟨n, e⟩ | e <;> rw [e]
  rcases truncTo_cases (Fmt.b32.trunc x.toNat) with ⟨m, e⟩ | e <;> rw [e]
  rfl
end

theorem ite_none {c : Prop} [Decidable c] {r : Report} : (if c then C.ok (some r) else C.ok none) = .ok none ↔ ¬ c := by
  by_cases h : c <;> simp [h]

theorem not_less_zero {x y : ℤ} (h : ¬ (decode .b64 (0#64).toNat).Less (.num false |(x : ℚ) - y|)) : x = y := by
  rw [show decode .b64 (0#64).toNat = .num false 0 from decode_zero ok64] at h
  simp only [Datum.Less, not_lt] at h
  have := abs_nonpos_iff.1 h
  exact_mod_cast sub_eq_zero.1 this

theorem not_less_self : ¬ (decode .b64 (0#64).toNat).Less (.num false 0) := by
  rw [show decode .b64 (0#64).toNat = .num false 0 from decode_zero ok64]
  simp [Datum.Less]

theorem bnd8 (x : BitVec 8) : x.toInt.natAbs ≤ 2 ^ 52 := by
  have h1 := BitVec.toInt_lt (x := x)
  have h2 := BitVec.le_toInt x
  norm_num at h1 h2
  omega
theorem bnd16 (x : BitVec 16) : x.toInt.natAbs ≤ 2 ^ 52 := by
  have h1 := BitVec.toInt_lt (x := x)
  have h2 := BitVec.le_toInt x
  norm_num at h1 h2
  omega
theorem bndU8 (x : BitVec 8) : (x.toNat : ℤ).natAbs ≤ 2 ^ 52 := by
  omega
theorem bndU16 (x : BitVec 16) : (x.toNat : ℤ).natAbs ≤ 2 ^ 52 := by
  omega

/-! ## `uint8x8_t` -/

section
variable [Dialect]

/-- A lane exceeds the tolerance: the exact difference of the two integers is greater. -/
def Exceeds_u8x8 (e a : uint8x8_t) (eps : BitVec 64) (i : Fin 8) : Prop :=
  (decode .b64 eps.toNat).Less (.num false |((((e.lane i).toNat : ℤ) : ℤ) : ℚ) - (((a.lane i).toNat : ℤ) : ℤ)|)

theorem almostEqual_u8x8_lane (e a : uint8x8_t) (eps : BitVec 64) (i : Fin 8) :
    ∃ d : BitVec 64, decode .b64 d.toNat = .num false |((((e.lane i).toNat : ℤ) : ℤ) : ℚ) - (((a.lane i).toNat : ℤ) : ℤ)| ∧
      laneBody ((i.val : ℕ) : ℤ) (.ofBits (.int .u8) (e.lane i)) (.ofBits (.int .u8) (a.lane i)) eps =
        if Fmt.b64.lt eps.toNat d.toNat = true then .ok (some ⟨((i.val : ℕ) : ℤ), ((a.lane i).toNat : ℤ), ((e.lane i).toNat : ℤ), d, eps⟩) else .ok none :=
  laneBody_int _ .u8 ((e.lane i).toNat : ℤ) ((a.lane i).toNat : ℤ) eps (by decide) (bndU8 _) (bndU8 _)

theorem almostEqual_u8x8_body (e a : uint8x8_t) (eps : BitVec 64) (i : Fin 8) :
    (do
      let diff := stdFabs (← Val.sub (← Val.cast .f64 (← e.get ((i.val : ℕ) : ℤ))) (← Val.cast .f64 (← a.get ((i.val : ℕ) : ℤ))))
      if Val.gt diff (.f64 eps) then
        let a ← Val.cast .s32 (← a.get ((i.val : ℕ) : ℤ))
        let e ← Val.cast .s32 (← e.get ((i.val : ℕ) : ℤ))
        pure (some ⟨((i.val : ℕ) : ℤ), intVal a, intVal e, diff.toF64, eps⟩)
      else pure none : C (Option Report)) =
    laneBody ((i.val : ℕ) : ℤ) (.ofBits (.int .u8) (e.lane i)) (.ofBits (.int .u8) (a.lane i)) eps :=
  laneBody_of (Vec.get_fin e i) (Vec.get_fin a i)

theorem almostEqual_u8x8_lane_none (e a : uint8x8_t) (eps : BitVec 64) (i : Fin 8) :
    laneBody ((i.val : ℕ) : ℤ) (.ofBits (.int .u8) (e.lane i)) (.ofBits (.int .u8) (a.lane i)) eps = .ok none ↔
      ¬ Exceeds_u8x8 e a eps i := by
  obtain ⟨d, hd, h⟩ := almostEqual_u8x8_lane e a eps i
  rw [h, ite_none, lt_iff ok64 (lt64 _) (lt64 _)]
  unfold Exceeds_u8x8
  rw [hd]

/-- `almostEqual` on `uint8x8_t` returns `true` exactly when no lane differs by more than `eps`. -/
theorem almostEqual_u8x8_passes (e a : uint8x8_t) (eps : BitVec 64) :
    almostEqual_u8x8 e a eps = .ok none ↔ ∀ i, ¬ Exceeds_u8x8 e a eps i := by
  unfold almostEqual_u8x8
  rw [forRet_none (almostEqual_u8x8_body e a eps)]
  exact forall_congr' (almostEqual_u8x8_lane_none e a eps)
example : @almostEqual_u8x8 .strict ⟨fun _ => 3#8⟩ ⟨fun _ => 1#8⟩ 0x4000000000000000#64 = .ok none := by decide +kernel

/-- Otherwise it reports the first lane that does, the two values, their exact distance and `eps`. -/
theorem almostEqual_u8x8_reports (e a : uint8x8_t) (eps : BitVec 64) (r : Report) (h : almostEqual_u8x8 e a eps = .ok (some r)) :
    ∃ i : Fin 8, (∀ j, j < i → ¬ Exceeds_u8x8 e a eps j) ∧ Exceeds_u8x8 e a eps i ∧
      r.index = i.val ∧ r.actual = ((a.lane i).toNat : ℤ) ∧ r.expected = ((e.lane i).toNat : ℤ) ∧
      decode .b64 r.diff.toNat = .num false |((((e.lane i).toNat : ℤ) : ℤ) : ℚ) - (((a.lane i).toNat : ℤ) : ℤ)| ∧ r.eps = eps := by
  unfold almostEqual_u8x8 at h
  rw [forRet_other (almostEqual_u8x8_body e a eps) _ (by simp)] at h
  obtain ⟨i, h1, h2⟩ := h
  refine ⟨i, fun j hj => (almostEqual_u8x8_lane_none e a eps j).1 (h1 j hj), ?_⟩
  obtain ⟨d, hd, h'⟩ := almostEqual_u8x8_lane e a eps i
  rw [h'] at h2
  split at h2
  · rename_i hl
    cases h2
    rw [lt_iff ok64 (lt64 _) (lt64 _), hd] at hl
    exact ⟨hl, rfl, rfl, rfl, hd, rfl⟩
  · cases h2
example : @almostEqual_u8x8 .strict ⟨fun _ => 3#8⟩ ⟨fun _ => 1#8⟩ 0#64 =
    .ok (some ⟨0, 1, 3, 0x4000000000000000#64, 0#64⟩) := by decide +kernel

/-- There is no other outcome. -/
theorem almostEqual_u8x8_returns (e a : uint8x8_t) (eps : BitVec 64) : ∃ o, almostEqual_u8x8 e a eps = .ok o := by
  unfold almostEqual_u8x8
  refine forRet_ok (almostEqual_u8x8_body e a eps) fun i => ?_
  obtain ⟨d, -, h⟩ := almostEqual_u8x8_lane e a eps i
  rw [h]
  split
  · exact ⟨_, rfl⟩
  · exact ⟨_, rfl⟩

/-- With the default tolerance it decides equality. -/
theorem almostEqual_u8x8_exact (e a : uint8x8_t) : almostEqual_u8x8 e a 0#64 = .ok none ↔ e = a := by
  rw [almostEqual_u8x8_passes]
  constructor
  · intro h
    apply Vec.ext
    funext i
    have := h i
    unfold Exceeds_u8x8 at this
    have h0 : (((e.lane i).toNat : ℤ) : ℤ) = ((a.lane i).toNat : ℤ) := not_less_zero this
    exact BitVec.eq_of_toNat_eq (by exact_mod_cast h0)
  · rintro rfl i
    unfold Exceeds_u8x8
    rw [sub_self, abs_zero]
    exact not_less_self
example : ∃ e a : uint8x8_t, e ≠ a := ⟨⟨fun _ => 1#8⟩, ⟨fun _ => 2#8⟩, fun h => absurd (congrFun (congrArg Vec.lane h) 0) (by decide)⟩
end

/-! ## `int8x8_t` -/

section
variable [Dialect]

/-- A lane exceeds the tolerance: the exact difference of the two integers is greater. -/
def Exceeds_s8x8 (e a : int8x8_t) (eps : BitVec 64) (i : Fin 8) : Prop :=
  (decode .b64 eps.toNat).Less (.num false |(((e.lane i).toInt : ℤ) : ℚ) - ((a.lane i).toInt : ℤ)|)

theorem almostEqual_s8x8_lane (e a : int8x8_t) (eps : BitVec 64) (i : Fin 8) :
    ∃ d : BitVec 64, decode .b64 d.toNat = .num false |(((e.lane i).toInt : ℤ) : ℚ) - ((a.lane i).toInt : ℤ)| ∧
      laneBody ((i.val : ℕ) : ℤ) (.ofBits (.int .i8) (e.lane i)) (.ofBits (.int .i8) (a.lane i)) eps =
        if Fmt.b64.lt eps.toNat d.toNat = true then .ok (some ⟨((i.val : ℕ) : ℤ), (a.lane i).toInt, (e.lane i).toInt, d, eps⟩) else .ok none :=
  laneBody_int _ .i8 (e.lane i).toInt (a.lane i).toInt eps (by decide) (bnd8 _) (bnd8 _)

theorem almostEqual_s8x8_body (e a : int8x8_t) (eps : BitVec 64) (i : Fin 8) :
    (do
      let diff := stdFabs (← Val.sub (← Val.cast .f64 (← e.get ((i.val : ℕ) : ℤ))) (← Val.cast .f64 (← a.get ((i.val : ℕ) : ℤ))))
      if Val.gt diff (.f64 eps) then
        let a ← Val.cast .s32 (← a.get ((i.val : ℕ) : ℤ))
        let e ← Val.cast .s32 (← e.get ((i.val : ℕ) : ℤ))
        pure (some ⟨((i.val : ℕ) : ℤ), intVal a, intVal e, diff.toF64, eps⟩)
      else pure none : C (Option Report)) =
    laneBody ((i.val : ℕ) : ℤ) (.ofBits (.int .i8) (e.lane i)) (.ofBits (.int .i8) (a.lane i)) eps :=
  laneBody_of (Vec.get_fin e i) (Vec.get_fin a i)

theorem almostEqual_s8x8_lane_none (e a : int8x8_t) (eps : BitVec 64) (i : Fin 8) :
    laneBody ((i.val : ℕ) : ℤ) (.ofBits (.int .i8) (e.lane i)) (.ofBits (.int .i8) (a.lane i)) eps = .ok none ↔
      ¬ Exceeds_s8x8 e a eps i := by
  obtain ⟨d, hd, h⟩ := almostEqual_s8x8_lane e a eps i
  rw [h, ite_none, lt_iff ok64 (lt64 _) (lt64 _)]
  unfold Exceeds_s8x8
  rw [hd]

/-- `almostEqual` on `int8x8_t` returns `true` exactly when no lane differs by more than `eps`. -/
theorem almostEqual_s8x8_passes (e a : int8x8_t) (eps : BitVec 64) :
    almostEqual_s8x8 e a eps = .ok none ↔ ∀ i, ¬ Exceeds_s8x8 e a eps i := by
  unfold almostEqual_s8x8
  rw [forRet_none (almostEqual_s8x8_body e a eps)]
  exact forall_congr' (almostEqual_s8x8_lane_none e a eps)
example : @almostEqual_s8x8 .strict ⟨fun _ => 3#8⟩ ⟨fun _ => 1#8⟩ 0x4000000000000000#64 = .ok none := by decide +kernel

/-- Otherwise it reports the first lane that does, the two values, their exact distance and `eps`. -/
theorem almostEqual_s8x8_reports (e a : int8x8_t) (eps : BitVec 64) (r : Report) (h : almostEqual_s8x8 e a eps = .ok (some r)) :
    ∃ i : Fin 8, (∀ j, j < i → ¬ Exceeds_s8x8 e a eps j) ∧ Exceeds_s8x8 e a eps i ∧
      r.index = i.val ∧ r.actual = (a.lane i).toInt ∧ r.expected = (e.lane i).toInt ∧
      decode .b64 r.diff.toNat = .num false |(((e.lane i).toInt : ℤ) : ℚ) - ((a.lane i).toInt : ℤ)| ∧ r.eps = eps := by
  unfold almostEqual_s8x8 at h
  rw [forRet_other (almostEqual_s8x8_body e a eps) _ (by simp)] at h
  obtain ⟨i, h1, h2⟩ := h
  refine ⟨i, fun j hj => (almostEqual_s8x8_lane_none e a eps j).1 (h1 j hj), ?_⟩
  obtain ⟨d, hd, h'⟩ := almostEqual_s8x8_lane e a eps i
  rw [h'] at h2
  split at h2
  · rename_i hl
    cases h2
    rw [lt_iff ok64 (lt64 _) (lt64 _), hd] at hl
    exact ⟨hl, rfl, rfl, rfl, hd, rfl⟩
  · cases h2
example : @almostEqual_s8x8 .strict ⟨fun _ => 3#8⟩ ⟨fun _ => 1#8⟩ 0#64 =
    .ok (some ⟨0, 1, 3, 0x4000000000000000#64, 0#64⟩) := by decide +kernel

/-- There is no other outcome. -/
theorem almostEqual_s8x8_returns (e a : int8x8_t) (eps : BitVec 64) : ∃ o, almostEqual_s8x8 e a eps = .ok o := by
  unfold almostEqual_s8x8
  refine forRet_ok (almostEqual_s8x8_body e a eps) fun i => ?_
  obtain ⟨d, -, h⟩ := almostEqual_s8x8_lane e a eps i
  rw [h]
  split
  · exact ⟨_, rfl⟩
  · exact ⟨_, rfl⟩

/-- With the default tolerance it decides equality. -/
theorem almostEqual_s8x8_exact (e a : int8x8_t) : almostEqual_s8x8 e a 0#64 = .ok none ↔ e = a := by
  rw [almostEqual_s8x8_passes]
  constructor
  · intro h
    apply Vec.ext
    funext i
    have := h i
    unfold Exceeds_s8x8 at this
    have h0 : ((e.lane i).toInt : ℤ) = (a.lane i).toInt := not_less_zero this
    exact BitVec.eq_of_toInt_eq h0
  · rintro rfl i
    unfold Exceeds_s8x8
    rw [sub_self, abs_zero]
    exact not_less_self
example : ∃ e a : int8x8_t, e ≠ a := ⟨⟨fun _ => 1#8⟩, ⟨fun _ => 2#8⟩, fun h => absurd (congrFun (congrArg Vec.lane h) 0) (by decide)⟩
end

/-! ## `uint16x8_t` -/

section
variable [Dialect]

/-- A lane exceeds the tolerance: the exact difference of the two integers is greater. -/
def Exceeds_u16x8 (e a : uint16x8_t) (eps : BitVec 64) (i : Fin 8) : Prop :=
  (decode .b64 eps.toNat).Less (.num false |((((e.lane i).toNat : ℤ) : ℤ) : ℚ) - (((a.lane i).toNat : ℤ) : ℤ)|)

theorem almostEqual_u16x8_lane (e a : uint16x8_t) (eps : BitVec 64) (i : Fin 8) :
    ∃ d : BitVec 64, decode .b64 d.toNat = .num false |((((e.lane i).toNat : ℤ) : ℤ) : ℚ) - (((a.lane i).toNat : ℤ) : ℤ)| ∧
      laneBody ((i.val : ℕ) : ℤ) (.ofBits (.int .u16) (e.lane i)) (.ofBits (.int .u16) (a.lane i)) eps =
        if Fmt.b64.lt eps.toNat d.toNat = true then .ok (some ⟨((i.val : ℕ) : ℤ), ((a.lane i).toNat : ℤ), ((e.lane i).toNat : ℤ), d, eps⟩) else .ok none :=
  laneBody_int _ .u16 ((e.lane i).toNat : ℤ) ((a.lane i).toNat : ℤ) eps (by decide) (bndU16 _) (bndU16 _)

theorem almostEqual_u16x8_body (e a : uint16x8_t) (eps : BitVec 64) (i : Fin 8) :
    (do
      let diff := stdFabs (← Val.sub (← Val.cast .f64 (← e.get ((i.val : ℕ) : ℤ))) (← Val.cast .f64 (← a.get ((i.val : ℕ) : ℤ))))
      if Val.gt diff (.f64 eps) then
        let a ← Val.cast .s32 (← a.get ((i.val : ℕ) : ℤ))
        let e ← Val.cast .s32 (← e.get ((i.val : ℕ) : ℤ))
        pure (some ⟨((i.val : ℕ) : ℤ), intVal a, intVal e, diff.toF64, eps⟩)
      else pure none : C (Option Report)) =
    laneBody ((i.val : ℕ) : ℤ) (.ofBits (.int .u16) (e.lane i)) (.ofBits (.int .u16) (a.lane i)) eps :=
  laneBody_of (Vec.get_fin e i) (Vec.get_fin a i)

theorem almostEqual_u16x8_lane_none (e a : uint16x8_t) (eps : BitVec 64) (i : Fin 8) :
    laneBody ((i.val : ℕ) : ℤ) (.ofBits (.int .u16) (e.lane i)) (.ofBits (.int .u16) (a.lane i)) eps = .ok none ↔
      ¬ Exceeds_u16x8 e a eps i := by
  obtain ⟨d, hd, h⟩ := almostEqual_u16x8_lane e a eps i
  rw [h, ite_none, lt_iff ok64 (lt64 _) (lt64 _)]
  unfold Exceeds_u16x8
  rw [hd]

/-- `almostEqual` on `uint16x8_t` returns `true` exactly when no lane differs by more than `eps`. -/
theorem almostEqual_u16x8_passes (e a : uint16x8_t) (eps : BitVec 64) :
    almostEqual_u16x8 e a eps = .ok none ↔ ∀ i, ¬ Exceeds_u16x8 e a eps i := by
  unfold almostEqual_u16x8
  rw [forRet_none (almostEqual_u16x8_body e a eps)]
  exact forall_congr' (almostEqual_u16x8_lane_none e a eps)
example : @almostEqual_u16x8 .strict ⟨fun _ => 3#16⟩ ⟨fun _ => 1#16⟩ 0x4000000000000000#64 = .ok none := by decide +kernel

/-- Otherwise it reports the first lane that does, the two values, their exact distance and `eps`. -/
theorem almostEqual_u16x8_reports (e a : uint16x8_t) (eps : BitVec 64) (r : Report) (h : almostEqual_u16x8 e a eps = .ok (some r)) :
    ∃ i : Fin 8, (∀ j, j < i → ¬ Exceeds_u16x8 e a eps j) ∧ Exceeds_u16x8 e a eps i ∧
      r.index = i.val ∧ r.actual = ((a.lane i).toNat : ℤ) ∧ r.expected = ((e.lane i).toNat : ℤ) ∧
      decode .b64 r.diff.toNat = .num false |((((e.lane i).toNat : ℤ) : ℤ) : ℚ) - (((a.lane i).toNat : ℤ) : ℤ)| ∧ r.eps = eps := by
  unfold almostEqual_u16x8 at h
  rw [forRet_other (almostEqual_u16x8_body e a eps) _ (by simp)] at h
  obtain ⟨i, h1, h2⟩ := h
  refine ⟨i, fun j hj => (almostEqual_u16x8_lane_none e a eps j).1 (h1 j hj), ?_⟩
  obtain ⟨d, hd, h'⟩ := almostEqual_u16x8_lane e a eps i
  rw [h'] at h2
  split at h2
  · rename_i hl
    cases h2
    rw [lt_iff ok64 (lt64 _) (lt64 _), hd] at hl
    exact ⟨hl, rfl, rfl, rfl, hd, rfl⟩
  · cases h2
example : @almostEqual_u16x8 .strict ⟨fun _ => 3#16⟩ ⟨fun _ => 1#16⟩ 0#64 =
    .ok (some ⟨0, 1, 3, 0x4000000000000000#64, 0#64⟩) := by decide +kernel

/-- There is no other outcome. -/
theorem almostEqual_u16x8_returns (e a : uint16x8_t) (eps : BitVec 64) : ∃ o, almostEqual_u16x8 e a eps = .ok o := by
  unfold almostEqual_u16x8
  refine forRet_ok (almostEqual_u16x8_body e a eps) fun i => ?_
  obtain ⟨d, -, h⟩ := almostEqual_u16x8_lane e a eps i
  rw [h]
  split
  · exact ⟨_, rfl⟩
  · exact ⟨_, rfl⟩

/-- With the default tolerance it decides equality. -/
theorem almostEqual_u16x8_exact (e a : uint16x8_t) : almostEqual_u16x8 e a 0#64 = .ok none ↔ e = a := by
  rw [almostEqual_u16x8_passes]
  constructor
  · intro h
    apply Vec.ext
    funext i
    have := h i
    unfold Exceeds_u16x8 at this
    have h0 : (((e.lane i).toNat : ℤ) : ℤ) = ((a.lane i).toNat : ℤ) := not_less_zero this
    exact BitVec.eq_of_toNat_eq (by exact_mod_cast h0)
  · rintro rfl i
    unfold Exceeds_u16x8
    rw [sub_self, abs_zero]
    exact not_less_self
example : ∃ e a : uint16x8_t, e ≠ a := ⟨⟨fun _ => 1#16⟩, ⟨fun _ => 2#16⟩, fun h => absurd (congrFun (congrArg Vec.lane h) 0) (by decide)⟩
end

/-! ## `int16x8_t` -/

section
variable [Dialect]

/-- A lane exceeds the tolerance: the exact difference of the two integers is greater. -/
def Exceeds_s16x8 (e a : int16x8_t) (eps : BitVec 64) (i : Fin 8) : Prop :=
  (decode .b64 eps.toNat).Less (.num false |(((e.lane i).toInt : ℤ) : ℚ) - ((a.lane i).toInt : ℤ)|)

theorem almostEqual_s16x8_lane (e a : int16x8_t) (eps : BitVec 64) (i : Fin 8) :
    ∃ d : BitVec 64, decode .b64 d.toNat = .num false |(((e.lane i).toInt : ℤ) : ℚ) - ((a.lane i).toInt : ℤ)| ∧
      laneBody ((i.val : ℕ) : ℤ) (.ofBits (.int .i16) (e.lane i)) (.ofBits (.int .i16) (a.lane i)) eps =
        if Fmt.b64.lt eps.toNat d.toNat = true then .ok (some ⟨((i.val : ℕ) : ℤ), (a.lane i).toInt, (e.lane i).toInt, d, eps⟩) else .ok none :=
  laneBody_int _ .i16 (e.lane i).toInt (a.lane i).toInt eps (by decide) (bnd16 _) (bnd16 _)

theorem almostEqual_s16x8_body (e a : int16x8_t) (eps : BitVec 64) (i : Fin 8) :
    (do
      let diff := stdFabs (← Val.sub (← Val.cast .f64 (← e.get ((i.val : ℕ) : ℤ))) (← Val.cast .f64 (← a.get ((i.val : ℕ) : ℤ))))
      if Val.gt diff (.f64 eps) then
        let a ← Val.cast .s32 (← a.get ((i.val : ℕ) : ℤ))
        let e ← Val.cast .s32 (← e.get ((i.val : ℕ) : ℤ))
        pure (some ⟨((i.val : ℕ) : ℤ), intVal a, intVal e, diff.toF64, eps⟩)
      else pure none : C (Option Report)) =
    laneBody ((i.val : ℕ) : ℤ) (.ofBits (.int .i16) (e.lane i)) (.ofBits (.int .i16) (a.lane i)) eps :=
  laneBody_of (Vec.get_fin e i) (Vec.get_fin a i)

theorem almostEqual_s16x8_lane_none (e a : int16x8_t) (eps : BitVec 64) (i : Fin 8) :
    laneBody ((i.val : ℕ) : ℤ) (.ofBits (.int .i16) (e.lane i)) (.ofBits (.int .i16) (a.lane i)) eps = .ok none ↔
      ¬ Exceeds_s16x8 e a eps i := by
  obtain ⟨d, hd, h⟩ := almostEqual_s16x8_lane e a eps i
  rw [h, ite_none, lt_iff ok64 (lt64 _) (lt64 _)]
  unfold Exceeds_s16x8
  rw [hd]

/-- `almostEqual` on `int16x8_t` returns `true` exactly when no lane differs by more than `eps`. -/
theorem almostEqual_s16x8_passes (e a : int16x8_t) (eps : BitVec 64) :
    almostEqual_s16x8 e a eps = .ok none ↔ ∀ i, ¬ Exceeds_s16x8 e a eps i := by
  unfold almostEqual_s16x8
  rw [forRet_none (almostEqual_s16x8_body e a eps)]
  exact forall_congr' (almostEqual_s16x8_lane_none e a eps)
example : @almostEqual_s16x8 .strict ⟨fun _ => 3#16⟩ ⟨fun _ => 1#16⟩ 0x4000000000000000#64 = .ok none := by decide +kernel

/-- Otherwise it reports the first lane that does, the two values, their exact distance and `eps`. -/
theorem almostEqual_s16x8_reports (e a : int16x8_t) (eps : BitVec 64) (r : Report) (h : almostEqual_s16x8 e a eps = .ok (some r)) :
    ∃ i : Fin 8, (∀ j, j < i → ¬ Exceeds_s16x8 e a eps j) ∧ Exceeds_s16x8 e a eps i ∧
      r.index = i.val ∧ r.actual = (a.lane i).toInt ∧ r.expected = (e.lane i).toInt ∧
      decode .b64 r.diff.toNat = .num false |(((e.lane i).toInt : ℤ) : ℚ) - ((a.lane i).toInt : ℤ)| ∧ r.eps = eps := by
  unfold almostEqual_s16x8 at h
  rw [forRet_other (almostEqual_s16x8_body e a eps) _ (by simp)] at h
  obtain ⟨i, h1, h2⟩ := h
  refine ⟨i, fun j hj => (almostEqual_s16x8_lane_none e a eps j).1 (h1 j hj), ?_⟩
  obtain ⟨d, hd, h'⟩ := almostEqual_s16x8_lane e a eps i
  rw [h'] at h2
  split at h2
  · rename_i hl
    cases h2
    rw [lt_iff ok64 (lt64 _) (lt64 _), hd] at hl
    exact ⟨hl, rfl, rfl, rfl, hd, rfl⟩
  · cases h2
example : @almostEqual_s16x8 .strict ⟨fun _ => 3#16⟩ ⟨fun _ => 1#16⟩ 0#64 =
    .ok (some ⟨0, 1, 3, 0x4000000000000000#64, 0#64⟩) := by decide +kernel

/-- There is no other outcome. -/
theorem almostEqual_s16x8_returns (e a : int16x8_t) (eps : BitVec 64) : ∃ o, almostEqual_s16x8 e a eps = .ok o := by
  unfold almostEqual_s16x8
  refine forRet_ok (almostEqual_s16x8_body e a eps) fun i => ?_
  obtain ⟨d, -, h⟩ := almostEqual_s16x8_lane e a eps i
  rw [h]
  split
  · exact ⟨_, rfl⟩
  · exact ⟨_, rfl⟩

/-- With the default tolerance it decides equality. -/
theorem almostEqual_s16x8_exact (e a : int16x8_t) : almostEqual_s16x8 e a 0#64 = .ok none ↔ e = a := by
  rw [almostEqual_s16x8_passes]
  constructor
  · intro h
    apply Vec.ext
    funext i
    have := h i
    unfold Exceeds_s16x8 at this
    have h0 : ((e.lane i).toInt : ℤ) = (a.lane i).toInt := not_less_zero this
    exact BitVec.eq_of_toInt_eq h0
  · rintro rfl i
    unfold Exceeds_s16x8
    rw [sub_self, abs_zero]
    exact not_less_self
example : ∃ e a : int16x8_t, e ≠ a := ⟨⟨fun _ => 1#16⟩, ⟨fun _ => 2#16⟩, fun h => absurd (congrFun (congrArg Vec.lane h) 0) (by decide)⟩
end

/-! ## `int8x16_t` -/

section
variable [Dialect]

/-- A lane exceeds the tolerance: the exact difference of the two integers is greater. -/
def Exceeds_s8x16 (e a : int8x16_t) (eps : BitVec 64) (i : Fin 16) : Prop :=
  (decode .b64 eps.toNat).Less (.num false |(((e.lane i).toInt : ℤ) : ℚ) - ((a.lane i).toInt : ℤ)|)

theorem almostEqual_s8x16_lane (e a : int8x16_t) (eps : BitVec 64) (i : Fin 16) :
    ∃ d : BitVec 64, decode .b64 d.toNat = .num false |(((e.lane i).toInt : ℤ) : ℚ) - ((a.lane i).toInt : ℤ)| ∧
      laneBody ((i.val : ℕ) : ℤ) (.ofBits (.int .i8) (e.lane i)) (.ofBits (.int .i8) (a.lane i)) eps =
        if Fmt.b64.lt eps.toNat d.toNat = true then .ok (some ⟨((i.val : ℕ) : ℤ), (a.lane i).toInt, (e.lane i).toInt, d, eps⟩) else .ok none :=
  laneBody_int _ .i8 (e.lane i).toInt (a.lane i).toInt eps (by decide) (bnd8 _) (bnd8 _)

theorem almostEqual_s8x16_body (e a : int8x16_t) (eps : BitVec 64) (i : Fin 16) :
    (do
      let diff := stdFabs (← Val.sub (← Val.cast .f64 (← e.get ((i.val : ℕ) : ℤ))) (← Val.cast .f64 (← a.get ((i.val : ℕ) : ℤ))))
      if Val.gt diff (.f64 eps) then
        let a ← Val.cast .s32 (← a.get ((i.val : ℕ) : ℤ))
        let e ← Val.cast .s32 (← e.get ((i.val : ℕ) : ℤ))
        pure (some ⟨((i.val : ℕ) : ℤ), intVal a, intVal e, diff.toF64, eps⟩)
      else pure none : C (Option Report)) =
    laneBody ((i.val : ℕ) : ℤ) (.ofBits (.int .i8) (e.lane i)) (.ofBits (.int .i8) (a.lane i)) eps :=
  laneBody_of (Vec.get_fin e i) (Vec.get_fin a i)

theorem almostEqual_s8x16_lane_none (e a : int8x16_t) (eps : BitVec 64) (i : Fin 16) :
    laneBody ((i.val : ℕ) : ℤ) (.ofBits (.int .i8) (e.lane i)) (.ofBits (.int .i8) (a.lane i)) eps = .ok none ↔
      ¬ Exceeds_s8x16 e a eps i := by
  obtain ⟨d, hd, h⟩ := almostEqual_s8x16_lane e a eps i
  rw [h, ite_none, lt_iff ok64 (lt64 _) (lt64 _)]
  unfold Exceeds_s8x16
  rw [hd]

/-- `almostEqual` on `int8x16_t` returns `true` exactly when no lane differs by more than `eps`. -/
theorem almostEqual_s8x16_passes (e a : int8x16_t) (eps : BitVec 64) :
    almostEqual_s8x16 e a eps = .ok none ↔ ∀ i, ¬ Exceeds_s8x16 e a eps i := by
  unfold almostEqual_s8x16
  rw [forRet_none (almostEqual_s8x16_body e a eps)]
  exact forall_congr' (almostEqual_s8x16_lane_none e a eps)
example : @almostEqual_s8x16 .strict ⟨fun _ => 3#8⟩ ⟨fun _ => 1#8⟩ 0x4000000000000000#64 = .ok none := by decide +kernel

/-- Otherwise it reports the first lane that does, the two values, their exact distance and `eps`. -/
theorem almostEqual_s8x16_reports (e a : int8x16_t) (eps : BitVec 64) (r : Report) (h : almostEqual_s8x16 e a eps = .ok (some r)) :
    ∃ i : Fin 16, (∀ j, j < i → ¬ Exceeds_s8x16 e a eps j) ∧ Exceeds_s8x16 e a eps i ∧
      r.index = i.val ∧ r.actual = (a.lane i).toInt ∧ r.expected = (e.lane i).toInt ∧
      decode .b64 r.diff.toNat = .num false |(((e.lane i).toInt : ℤ) : ℚ) - ((a.lane i).toInt : ℤ)| ∧ r.eps = eps := by
  unfold almostEqual_s8x16 at h
  rw [forRet_other (almostEqual_s8x16_body e a eps) _ (by simp)] at h
  obtain ⟨i, h1, h2⟩ := h
  refine ⟨i, fun j hj => (almostEqual_s8x16_lane_none e a eps j).1 (h1 j hj), ?_⟩
  obtain ⟨d, hd, h'⟩ := almostEqual_s8x16_lane e a eps i
  rw [h'] at h2
  split at h2
  · rename_i hl
    cases h2
    rw [lt_iff ok64 (lt64 _) (lt64 _), hd] at hl
    exact ⟨hl, rfl, rfl, rfl, hd, rfl⟩
  · cases h2
example : @almostEqual_s8x16 .strict ⟨fun _ => 3#8⟩ ⟨fun _ => 1#8⟩ 0#64 =
    .ok (some ⟨0, 1, 3, 0x4000000000000000#64, 0#64⟩) := by decide +kernel

/-- There is no other outcome. -/
theorem almostEqual_s8x16_returns (e a : int8x16_t) (eps : BitVec 64) : ∃ o, almostEqual_s8x16 e a eps = .ok o := by
  unfold almostEqual_s8x16
  refine forRet_ok (almostEqual_s8x16_body e a eps) fun i => ?_
  obtain ⟨d, -, h⟩ := almostEqual_s8x16_lane e a eps i
  rw [h]
  split
  · exact ⟨_, rfl⟩
  · exact ⟨_, rfl⟩

/-- With the default tolerance it decides equality. -/
theorem almostEqual_s8x16_exact (e a : int8x16_t) : almostEqual_s8x16 e a 0#64 = .ok none ↔ e = a := by
  rw [almostEqual_s8x16_passes]
  constructor
  · intro h
    apply Vec.ext
    funext i
    have := h i
    unfold Exceeds_s8x16 at this
    have h0 : ((e.lane i).toInt : ℤ) = (a.lane i).toInt := not_less_zero this
    exact BitVec.eq_of_toInt_eq h0
  · rintro rfl i
    unfold Exceeds_s8x16
    rw [sub_self, abs_zero]
    exact not_less_self
example : ∃ e a : int8x16_t, e ≠ a := ⟨⟨fun _ => 1#8⟩, ⟨fun _ => 2#8⟩, fun h => absurd (congrFun (congrArg Vec.lane h) 0) (by decide)⟩
end

/-! ## `int16x4_t` -/

section
variable [Dialect]

/-- A lane exceeds the tolerance: the exact difference of the two integers is greater. -/
def Exceeds_s16x4 (e a : int16x4_t) (eps : BitVec 64) (i : Fin 4) : Prop :=
  (decode .b64 eps.toNat).Less (.num false |(((e.lane i).toInt : ℤ) : ℚ) - ((a.lane i).toInt : ℤ)|)

theorem almostEqual_s16x4_lane (e a : int16x4_t) (eps : BitVec 64) (i : Fin 4) :
    ∃ d : BitVec 64, decode .b64 d.toNat = .num false |(((e.lane i).toInt : ℤ) : ℚ) - ((a.lane i).toInt : ℤ)| ∧
      laneBody ((i.val : ℕ) : ℤ) (.ofBits (.int .i16) (e.lane i)) (.ofBits (.int .i16) (a.lane i)) eps =
        if Fmt.b64.lt eps.toNat d.toNat = true then .ok (some ⟨((i.val : ℕ) : ℤ), (a.lane i).toInt, (e.lane i).toInt, d, eps⟩) else .ok none :=
  laneBody_int _ .i16 (e.lane i).toInt (a.lane i).toInt eps (by decide) (bnd16 _) (bnd16 _)

theorem almostEqual_s16x4_body (e a : int16x4_t) (eps : BitVec 64) (i : Fin 4) :
    (do
      let diff := stdFabs (← Val.sub (← Val.cast .f64 (← e.get ((i.val : ℕ) : ℤ))) (← Val.cast .f64 (← a.get ((i.val : ℕ) : ℤ))))
      if Val.gt diff (.f64 eps) then
        let a ← Val.cast .s32 (← a.get ((i.val : ℕ) : ℤ))
        let e ← Val.cast .s32 (← e.get ((i.val : ℕ) : ℤ))
        pure (some ⟨((i.val : ℕ) : ℤ), intVal a, intVal e, diff.toF64, eps⟩)
      else pure none : C (Option Report)) =
    laneBody ((i.val : ℕ) : ℤ) (.ofBits (.int .i16) (e.lane i)) (.ofBits (.int .i16) (a.lane i)) eps :=
  laneBody_of (Vec.get_fin e i) (Vec.get_fin a i)

theorem almostEqual_s16x4_lane_none (e a : int16x4_t) (eps : BitVec 64) (i : Fin 4) :
    laneBody ((i.val : ℕ) : ℤ) (.ofBits (.int .i16) (e.lane i)) (.ofBits (.int .i16) (a.lane i)) eps = .ok none ↔
      ¬ Exceeds_s16x4 e a eps i := by
  obtain ⟨d, hd, h⟩ := almostEqual_s16x4_lane e a eps i
  rw [h, ite_none, lt_iff ok64 (lt64 _) (lt64 _)]
  unfold Exceeds_s16x4
  rw [hd]

/-- `almostEqual` on `int16x4_t` returns `true` exactly when no lane differs by more than `eps`. -/
theorem almostEqual_s16x4_passes (e a : int16x4_t) (eps : BitVec 64) :
    almostEqual_s16x4 e a eps = .ok none ↔ ∀ i, ¬ Exceeds_s16x4 e a eps i := by
  unfold almostEqual_s16x4
  rw [forRet_none (almostEqual_s16x4_body e a eps)]
  exact forall_congr' (almostEqual_s16x4_lane_none e a eps)
example : @almostEqual_s16x4 .strict ⟨fun _ => 3#16⟩ ⟨fun _ => 1#16⟩ 0x4000000000000000#64 = .ok none := by decide +kernel

/-- Otherwise it reports the first lane that does, the two values, their exact distance and `eps`. -/
theorem almostEqual_s16x4_reports (e a : int16x4_t) (eps : BitVec 64) (r : Report) (h : almostEqual_s16x4 e a eps = .ok (some r)) :
    ∃ i : Fin 4, (∀ j, j < i → ¬ Exceeds_s16x4 e a eps j) ∧ Exceeds_s16x4 e a eps i ∧
      r.index = i.val ∧ r.actual = (a.lane i).toInt ∧ r.expected = (e.lane i).toInt ∧
      decode .b64 r.diff.toNat = .num false |(((e.lane i).toInt : ℤ) : ℚ) - ((a.lane i).toInt : ℤ)| ∧ r.eps = eps := by
  unfold almostEqual_s16x4 at h
  rw [forRet_other (almostEqual_s16x4_body e a eps) _ (by simp)] at h
  obtain ⟨i, h1, h2⟩ := h
  refine ⟨i, fun j hj => (almostEqual_s16x4_lane_none e a eps j).1 (h1 j hj), ?_⟩
  obtain ⟨d, hd, h'⟩ := almostEqual_s16x4_lane e a eps i
  rw [h'] at h2
  split at h2
  · rename_i hl
    cases h2
    rw [lt_iff ok64 (lt64 _) (lt64 _), hd] at hl
    exact ⟨hl, rfl, rfl, rfl, hd, rfl⟩
  · cases h2
example : @almostEqual_s16x4 .strict ⟨fun _ => 3#16⟩ ⟨fun _ => 1#16⟩ 0#64 =
    .ok (some ⟨0, 1, 3, 0x4000000000000000#64, 0#64⟩) := by decide +kernel

/-- There is no other outcome. -/
theorem almostEqual_s16x4_returns (e a : int16x4_t) (eps : BitVec 64) : ∃ o, almostEqual_s16x4 e a eps = .ok o := by
  unfold almostEqual_s16x4
  refine forRet_ok (almostEqual_s16x4_body e a eps) fun i => ?_
  obtain ⟨d, -, h⟩ := almostEqual_s16x4_lane e a eps i
  rw [h]
  split
  · exact ⟨_, rfl⟩
  · exact ⟨_, rfl⟩

/-- With the default tolerance it decides equality. -/
theorem almostEqual_s16x4_exact (e a : int16x4_t) : almostEqual_s16x4 e a 0#64 = .ok none ↔ e = a := by
  rw [almostEqual_s16x4_passes]
  constructor
  · intro h
    apply Vec.ext
    funext i
    have := h i
    unfold Exceeds_s16x4 at this
    have h0 : ((e.lane i).toInt : ℤ) = (a.lane i).toInt := not_less_zero this
    exact BitVec.eq_of_toInt_eq h0
  · rintro rfl i
    unfold Exceeds_s16x4
    rw [sub_self, abs_zero]
    exact not_less_self
example : ∃ e a : int16x4_t, e ≠ a := ⟨⟨fun _ => 1#16⟩, ⟨fun _ => 2#16⟩, fun h => absurd (congrFun (congrArg Vec.lane h) 0) (by decide)⟩
end

/-! ## `uint8x8x2_t` -/

section
variable [Dialect]

theorem almostEqual_u8x8x2_body (e a : uint8x8x2_t) (i : Fin 2) :
    (if h : (0 : Int) ≤ ((i.val : ℕ) : ℤ) ∧ ((i.val : ℕ) : ℤ) < 2 then
      almostEqual_u8x8 (e.reg ⟨((i.val : ℕ) : ℤ).toNat, by omega⟩) (a.reg ⟨((i.val : ℕ) : ℤ).toNat, by omega⟩) 0#64
    else .ub .outOfBounds : C (Option Report)) = almostEqual_u8x8 (e.reg i) (a.reg i) 0#64 := by
  rw [dif_pos ⟨by omega, by omega⟩]
  rfl

/-- `almostEqual` on `uint8x8x2_t` decides equality. -/
theorem almostEqual_u8x8x2_exact (e a : uint8x8x2_t) : almostEqual_u8x8x2 e a = .ok none ↔ e = a := by
  unfold almostEqual_u8x8x2
  rw [forRet_none (almostEqual_u8x8x2_body e a)]
  constructor
  · intro h
    apply VecArr.ext
    funext i
    exact (almostEqual_u8x8_exact _ _).1 (h i)
  · rintro rfl i
    exact (almostEqual_u8x8_exact _ _).2 rfl
example : @almostEqual_u8x8x2 .strict ⟨fun _ => ⟨fun _ => 3#8⟩⟩ ⟨fun i => ⟨fun _ => if i = 1 then 2#8 else 3#8⟩⟩ =
    .ok (some ⟨0, 2, 3, 0x3ff0000000000000#64, 0#64⟩) := by decide +kernel

/-- There is no other outcome than returning `true` or `false`. -/
theorem almostEqual_u8x8x2_returns (e a : uint8x8x2_t) : ∃ o, almostEqual_u8x8x2 e a = .ok o := by
  unfold almostEqual_u8x8x2
  exact forRet_ok (almostEqual_u8x8x2_body e a) fun i => almostEqual_u8x8_returns _ _ _

/-- The report is the one of the first differing half. -/
theorem almostEqual_u8x8x2_reports (e a : uint8x8x2_t) (r : Report) (h : almostEqual_u8x8x2 e a = .ok (some r)) :
    ∃ k : Fin 2, ∃ i : Fin 8, (∀ l, l < k → e.reg l = a.reg l) ∧
      (∀ j, j < i → (e.reg k).lane j = (a.reg k).lane j) ∧ (e.reg k).lane i ≠ (a.reg k).lane i ∧
      r.index = i.val ∧ r.actual = ((a.reg k).lane i).toNat ∧ r.expected = ((e.reg k).lane i).toNat := by
  unfold almostEqual_u8x8x2 at h
  rw [forRet_other (almostEqual_u8x8x2_body e a) _ (by simp)] at h
  obtain ⟨k, h1, h2⟩ := h
  obtain ⟨i, h3, h4, h5, h6, h7, -, -⟩ := almostEqual_u8x8_reports _ _ _ _ h2
  refine ⟨k, i, fun l hl => (almostEqual_u8x8_exact _ _).1 (h1 l hl), fun j hj => ?_, fun he => ?_, h5, h6, h7⟩
  · have h0 := not_less_zero (h3 j hj)
    exact BitVec.eq_of_toNat_eq (by exact_mod_cast h0)
  · unfold Exceeds_u8x8 at h4
    rw [he, sub_self, abs_zero] at h4
    exact not_less_self h4

end

/-! ## `float32x4_t` -/

section
variable [Dialect]

/-- A lane exceeds the tolerance: the distance, rounded to `double`, is greater. -/
def Exceeds_f32x4 (e a : float32x4_t) (eps : BitVec 64) (i : Fin 4) : Prop :=
  FarApart .b64 (decode .b64 eps.toNat) (decode .b32 (e.lane i).toNat) (decode .b32 (a.lane i).toNat)

theorem almostEqual_f32x4_body (e a : float32x4_t) (eps : BitVec 64) (i : Fin 4) :
    (do
      let diff := stdFabs (← Val.sub (← Val.cast .f64 (← e.get ((i.val : ℕ) : ℤ))) (← Val.cast .f64 (← a.get ((i.val : ℕ) : ℤ))))
      if Val.gt diff (.f64 eps) then
        let a ← Val.cast .s32 (← a.get ((i.val : ℕ) : ℤ))
        let e ← Val.cast .s32 (← e.get ((i.val : ℕ) : ℤ))
        pure (some ⟨((i.val : ℕ) : ℤ), intVal a, intVal e, diff.toF64, eps⟩)
      else pure none : C (Option Report)) =
    laneOut ((i.val : ℕ) : ℤ) (e.lane i) (a.lane i) (dist64 (e.lane i) (a.lane i)) eps :=
  (laneBody_of (Vec.get_fin e i) (Vec.get_fin a i)).trans (laneBody_f32 _ _ _ _)

omit [Dialect] in
theorem exceeds_f32x4_iff {e a : float32x4_t} {eps : BitVec 64} {i : Fin 4} :
    (decode .b64 eps.toNat).Less (decode .b64 (dist64 (e.lane i) (a.lane i)).toNat) ↔ Exceeds_f32x4 e a eps i :=
  less_iff ok64 (isDist64 _ _)

/-- `almostEqual` on `float32x4_t` returns `true` exactly when no lane exceeds the tolerance. -/
theorem almostEqual_f32x4_passes (e a : float32x4_t) (eps : BitVec 64) :
    almostEqual_f32x4 e a eps = .ok none ↔ ∀ i, ¬ Exceeds_f32x4 e a eps i := by
  unfold almostEqual_f32x4
  rw [forRet_none (almostEqual_f32x4_body e a eps)]
  exact forall_congr' fun i => laneOut_none.trans exceeds_f32x4_iff.not
example : @almostEqual_f32x4 .strict ⟨fun _ => 0x40400000#32⟩ ⟨fun _ => 0x3f800000#32⟩ 0x4000000000000000#64 = .ok none := by decide +kernel

/-- Numbers no further apart than `eps` are accepted. -/
theorem almostEqual_f32x4_accepts (e a : float32x4_t) (eps : BitVec 64) (s : Bool) (v : ℚ)
    (he : decode .b64 eps.toNat = .num s v)
    (h : ∀ i, ∃ t x u y, decode .b32 (e.lane i).toNat = .num t x ∧ decode .b32 (a.lane i).toNat = .num u y ∧ |x - y| ≤ v) :
    almostEqual_f32x4 e a eps = .ok none := by
  rw [almostEqual_f32x4_passes]
  intro i
  obtain ⟨t, x, u, y, hx, hy, h⟩ := h i
  unfold Exceeds_f32x4
  rw [he, hx, hy]
  exact near_not_far he h
example : ∃ t x u y, decode .b32 (0x40400000#32).toNat = .num t x ∧ decode .b32 (0x3f800000#32).toNat = .num u y ∧
    |x - y| ≤ 2 := by
  refine ⟨false, 3, false, 1, ?_, ?_, by norm_num⟩
  · simp [decode, expField, fracField, signField, withSign, emax, show Nat.testBit 1077936128 31 = false by decide]
    norm_num
  · simp [decode, expField, fracField, signField, withSign, emax, show Nat.testBit 1065353216 31 = false by decide]

/-- With the default tolerance: every lane is equal in value, or not a number in one of the operands. -/
theorem almostEqual_f32x4_exact (e a : float32x4_t) : almostEqual_f32x4 e a 0#64 = .ok none ↔
    ∀ i, NanOrEqual (decode .b32 (e.lane i).toNat) (decode .b32 (a.lane i).toNat) := by
  rw [almostEqual_f32x4_passes]
  refine forall_congr' fun i => ?_
  unfold Exceeds_f32x4
  rw [show decode .b64 (0#64).toNat = .num false 0 from decode_zero ok64, farApart_zero64, not_not]

/-- A failing comparison reports the first lane that exceeds the tolerance, with the integral parts of the
two values. -/
theorem almostEqual_f32x4_reports (e a : float32x4_t) (eps : BitVec 64) (r : Report)
    (h : almostEqual_f32x4 e a eps = .ok (some r)) :
    ∃ i : Fin 4, (∀ j, j < i → ¬ Exceeds_f32x4 e a eps j) ∧ Exceeds_f32x4 e a eps i ∧
      r.index = i.val ∧ IsInt (decode .b32 (a.lane i).toNat) r.actual ∧ IsInt (decode .b32 (e.lane i).toNat) r.expected ∧
      IsDist .b64 (decode .b32 (e.lane i).toNat) (decode .b32 (a.lane i).toNat) (decode .b64 r.diff.toNat) ∧ r.eps = eps := by
  unfold almostEqual_f32x4 at h
  rw [forRet_other (almostEqual_f32x4_body e a eps) _ (by simp)] at h
  obtain ⟨i, h1, h2⟩ := h
  obtain ⟨l, ha, he, hi, hd, hp⟩ := laneOut_some.1 h2
  exact ⟨i, fun j hj => (laneOut_none.trans exceeds_f32x4_iff.not).1 (h1 j hj), exceeds_f32x4_iff.1 l, hi, ha, he,
    hd ▸ isDist64 _ _, hp⟩
example : @almostEqual_f32x4 .strict ⟨fun _ => 0x40400000#32⟩ ⟨fun _ => 0x3f800000#32⟩ 0#64 =
    .ok (some ⟨0, 1, 3, 0x4000000000000000#64, 0#64⟩) := by decide +kernel

/-- The message is undefined behaviour exactly when one of the values of the first lane that exceeds the
tolerance has no `int` conversion. -/
theorem almostEqual_f32x4_ub_iff (e a : float32x4_t) (eps : BitVec 64) :
    almostEqual_f32x4 e a eps = .ub .floatToInt ↔
    ∃ i : Fin 4, (∀ j, j < i → ¬ Exceeds_f32x4 e a eps j) ∧ Exceeds_f32x4 e a eps i ∧
      ¬ ((∃ n, IsInt (decode .b32 (a.lane i).toNat) n) ∧ ∃ n, IsInt (decode .b32 (e.lane i).toNat) n) := by
  unfold almostEqual_f32x4
  rw [forRet_other (almostEqual_f32x4_body e a eps) _ (by simp)]
  refine exists_congr fun i => ?_
  rw [laneOut_ub, exceeds_f32x4_iff]
  exact and_congr_left' (forall_congr' fun j => imp_congr_right fun _ => laneOut_none.trans exceeds_f32x4_iff.not)

/-- There is no other outcome. -/
theorem almostEqual_f32x4_outcomes (e a : float32x4_t) (eps : BitVec 64) :
    (∃ o, almostEqual_f32x4 e a eps = .ok o) ∨ almostEqual_f32x4 e a eps = .ub .floatToInt := by
  unfold almostEqual_f32x4
  exact forRet_cases (almostEqual_f32x4_body e a eps) fun i => laneOut_cases _ _ _ _ _

/-- A result that is not a number passes for any expected value. -/
theorem almostEqual_f32x4_nan_wrong (e : float32x4_t) (eps : BitVec 64) :
    almostEqual_f32x4 e ⟨fun _ => 0x7fc00000#32⟩ eps = .ok none := by
  rw [almostEqual_f32x4_passes]
  rintro i ⟨d, h, l⟩
  have : decode .b32 (0x7fc00000#32).toNat = .nan := by simp [decode, expField, fracField]
  rw [show (⟨fun _ => 0x7fc00000#32⟩ : float32x4_t).lane i = 0x7fc00000#32 from rfl, this] at h
  have hd : d = .nan := by
    revert h
    cases decode .b32 (e.lane i).toNat <;> exact id
  rw [hd] at l
  revert l
  cases decode .b64 eps.toNat with
  | inf s => cases s <;> exact id
  | _ => exact id
/-- Comparing 1.0 with 4294967296.0 has undefined behaviour instead of failing. -/
theorem almostEqual_f32x4_message_wrong :
    almostEqual_f32x4 ⟨fun _ => 0x3f800000#32⟩ ⟨fun _ => 0x4f800000#32⟩ 0#64 = .ub .floatToInt := by
  rename_i D
  obtain ⟨w⟩ := D
  cases w <;> decide +kernel

end

/-! ## `std::vector<float>` -/

section
variable [Dialect]

omit [Dialect] in
theorem vecAt_get {v : List (BitVec 32)} {i : Nat} (h : i < v.length) : vecAt v ((i : ℕ) : ℤ) = .ok (.f32 v[i]) := by
  unfold vecAt
  rw [if_pos (by omega), Int.toNat_natCast, List.getElem?_eq_getElem h]

omit [Dialect] in
theorem vecAt_past {v : List (BitVec 32)} {i : Nat} (h : v.length ≤ i) : vecAt v ((i : ℕ) : ℤ) = .ub .outOfBounds := by
  unfold vecAt
  rw [if_pos (by omega), Int.toNat_natCast, List.getElem?_eq_none h]

/-- An entry exceeds the tolerance: the distance, rounded to `float`, is greater. -/
def Exceeds_vec (e a : List (BitVec 32)) (eps : BitVec 64) (i : Nat) : Prop :=
  ∃ x y, e[i]? = some x ∧ a[i]? = some y ∧ FarApart .b32 (decode .b64 eps.toNat) (decode .b32 x.toNat) (decode .b32 y.toNat)

/-- One iteration. -/
def vecOut (e a : List (BitVec 32)) (eps : BitVec 64) (i : Fin 4) : C (Option Report) :=
  if h : i.val < e.length ∧ i.val < a.length then laneOut ((i.val : ℕ) : ℤ) e[i.val] a[i.val] (dist32 e[i.val] a[i.val]) eps
  else .ub .outOfBounds

theorem almostEqual_vec_body (e a : List (BitVec 32)) (eps : BitVec 64) (i : Fin 4) :
    (do
      let diff ← Val.cast .f64 (stdFabs (← Val.sub (← vecAt e ((i.val : ℕ) : ℤ)) (← vecAt a ((i.val : ℕ) : ℤ))))
      if Val.gt diff (.f64 eps) then
        let a ← Val.cast .s32 (← vecAt a ((i.val : ℕ) : ℤ))
        let e ← Val.cast .s32 (← vecAt e ((i.val : ℕ) : ℤ))
        pure (some ⟨((i.val : ℕ) : ℤ), intVal a, intVal e, diff.toF64, eps⟩)
      else pure none : C (Option Report)) = vecOut e a eps i := by
  unfold vecOut
  split
  · rename_i h
    rw [vecAt_get h.1, vecAt_get h.2]
    generalize e[i.val] = x
    generalize a[i.val] = y
    have hsub : Val.sub (.f32 x) (.f32 y) = .ok (.f32 (BitVec.ofNat 32 (Fmt.b32.sub x.toNat y.toNat))) := rfl
    unfold laneOut
    simp only [Val.cast, bind, C.bind', hsub]
    show (if Fmt.b64.lt eps.toNat _ = true then _ else _) = _
    congr 1
    rcases truncTo_cases (Fmt.b32.trunc y.toNat) with ⟨n, e⟩ | e <;> rw [e]
    rcases truncTo_cases (Fmt.b32.trunc x.toNat) with ⟨m, e⟩ | e <;> rw [e]
    rfl
  · rename_i h
    by_cases h1 : i.val < e.length
    · rw [vecAt_get h1, vecAt_past (by omega : a.length ≤ i.val)]
      rfl
    · rw [vecAt_past (by omega : e.length ≤ i.val)]
      rfl

omit [Dialect] in
theorem vecOut_none {e a : List (BitVec 32)} {eps : BitVec 64} {i : Fin 4} :
    vecOut e a eps i = .ok none ↔ i.val < e.length ∧ i.val < a.length ∧ ¬ Exceeds_vec e a eps i.val := by
  unfold vecOut Exceeds_vec
  split
  · rename_i h
    rw [laneOut_none, less_iff ok32 (isDist32 _ _), List.getElem?_eq_getElem h.1, List.getElem?_eq_getElem h.2]
    constructor
    · refine fun hn => ⟨h.1, h.2, ?_⟩
      rintro ⟨x, y, hx, hy, hf⟩
      cases hx; cases hy
      exact hn hf
    · exact fun hn hf => hn.2.2 ⟨_, _, rfl, rfl, hf⟩
  · rename_i h
    exact iff_of_false (by simp) fun hn => h ⟨hn.1, hn.2.1⟩

/-- `almostEqual` on vectors returns `true` exactly when both have at least four entries and none of the
first four exceeds the tolerance. -/
theorem almostEqual_vec_passes (e a : List (BitVec 32)) (eps : BitVec 64) : almostEqual_vec e a eps = .ok none ↔
    4 ≤ e.length ∧ 4 ≤ a.length ∧ ∀ i, i < 4 → ¬ Exceeds_vec e a eps i := by
  unfold almostEqual_vec
  rw [forRet_none (almostEqual_vec_body e a eps)]
  simp only [vecOut_none]
  constructor
  · intro h
    have h3 := h 3
    exact ⟨h3.1, h3.2.1, fun i hi => (h ⟨i, hi⟩).2.2⟩
  · rintro ⟨h1, h2, h3⟩ i
    exact ⟨by omega, by omega, h3 i.val i.isLt⟩
example : @almostEqual_vec .strict [0x40400000#32, 0#32, 0#32, 0#32] [0x3f800000#32, 0#32, 0#32, 0#32] 0x4000000000000000#64 = .ok none := by
  decide +kernel

/-- With the default tolerance: the first four entries are equal in value, or not a number in one operand. -/
theorem almostEqual_vec_exact (e a : List (BitVec 32)) : almostEqual_vec e a 0#64 = .ok none ↔
    ∀ i, i < 4 → ∃ x y, e[i]? = some x ∧ a[i]? = some y ∧ NanOrEqual (decode .b32 x.toNat) (decode .b32 y.toNat) := by
  rw [almostEqual_vec_passes]
  unfold Exceeds_vec
  rw [show decode .b64 (0#64).toNat = .num false 0 from decode_zero ok64]
  simp only [farApart_zero32]
  constructor
  · rintro ⟨h1, h2, h3⟩ i hi
    have e1 := List.getElem?_eq_getElem (l := e) (i := i) (by omega)
    have e2 := List.getElem?_eq_getElem (l := a) (i := i) (by omega)
    exact ⟨_, _, e1, e2, not_not.1 fun hn => h3 i hi ⟨_, _, e1, e2, hn⟩⟩
  · intro h
    obtain ⟨x, y, hx, hy, -⟩ := h 3 (by omega)
    refine ⟨(List.getElem?_eq_some_iff.1 hx).1, (List.getElem?_eq_some_iff.1 hy).1, ?_⟩
    rintro i hi ⟨x, y, hx, hy, hn⟩
    obtain ⟨x', y', hx', hy', h'⟩ := h i hi
    rw [hx] at hx'
    rw [hy] at hy'
    cases hx'; cases hy'
    exact hn h'

/-- A failing comparison reports the first entry that exceeds the tolerance. -/
theorem almostEqual_vec_reports (e a : List (BitVec 32)) (eps : BitVec 64) (r : Report)
    (h : almostEqual_vec e a eps = .ok (some r)) :
    ∃ i x y, i < 4 ∧ e[i]? = some x ∧ a[i]? = some y ∧ (∀ j, j < i → ¬ Exceeds_vec e a eps j) ∧ Exceeds_vec e a eps i ∧
      r.index = (i : ℕ) ∧ IsInt (decode .b32 y.toNat) r.actual ∧ IsInt (decode .b32 x.toNat) r.expected ∧
      IsDist .b32 (decode .b32 x.toNat) (decode .b32 y.toNat) (decode .b64 r.diff.toNat) ∧ r.eps = eps := by
  unfold almostEqual_vec at h
  rw [forRet_other (almostEqual_vec_body e a eps) _ (by simp)] at h
  obtain ⟨i, h1, h2⟩ := h
  unfold vecOut at h2
  split at h2
  · rename_i hl
    obtain ⟨l, ha, he, hi, hd, hp⟩ := laneOut_some.1 h2
    have e1 := List.getElem?_eq_getElem hl.1
    have e2 := List.getElem?_eq_getElem hl.2
    refine ⟨i.val, _, _, i.isLt, e1, e2, fun j hj => ?_, ⟨_, _, e1, e2, (less_iff ok32 (isDist32 _ _)).1 l⟩, hi, ha, he,
      hd ▸ isDist32 _ _, hp⟩
    exact (vecOut_none.1 (h1 ⟨j, by omega⟩ hj)).2.2
  · cases h2
example : @almostEqual_vec .strict [0x40400000#32] [0x3f800000#32] 0#64 = .ok (some ⟨0, 1, 3, 0x4000000000000000#64, 0#64⟩) := by
  decide +kernel

/-- Undefined behaviour by reading past the end: exactly when a vector ends before the fourth entry and
no earlier entry exceeds the tolerance. -/
theorem almostEqual_vec_past_iff (e a : List (BitVec 32)) (eps : BitVec 64) :
    almostEqual_vec e a eps = .ub .outOfBounds ↔
    (e.length < 4 ∨ a.length < 4) ∧ ∀ i, i < 4 → ¬ Exceeds_vec e a eps i := by
  unfold almostEqual_vec
  rw [forRet_other (almostEqual_vec_body e a eps) _ (by simp)]
  constructor
  · rintro ⟨i, h1, h2⟩
    unfold vecOut at h2
    split at h2
    · rename_i h
      rcases laneOut_cases ((i.val : ℕ) : ℤ) e[i.val] a[i.val] (dist32 e[i.val] a[i.val]) eps with ⟨o, ho⟩ | ho <;>
        rw [ho] at h2 <;> cases h2
    · rename_i h
      refine ⟨by omega, fun j hj => ?_⟩
      by_cases hji : j < i.val
      · exact (vecOut_none.1 (h1 ⟨j, hj⟩ hji)).2.2
      · rintro ⟨x, y, hx, hy, -⟩
        have := (List.getElem?_eq_some_iff.1 hx).1
        have := (List.getElem?_eq_some_iff.1 hy).1
        omega
  · rintro ⟨h1, h2⟩
    refine ⟨⟨min e.length a.length, by omega⟩, fun j hj => ?_, ?_⟩
    · have : j.val < min e.length a.length := hj
      exact vecOut_none.2 ⟨by omega, by omega, h2 _ (by omega)⟩
    · unfold vecOut
      rw [dif_neg (by show ¬ (min e.length a.length < e.length ∧ min e.length a.length < a.length); omega)]
example : @almostEqual_vec .strict [0x40400000#32] [0x40400000#32] 0#64 = .ub .outOfBounds := by decide +kernel

/-- Entries after the fourth are not compared. -/
theorem almostEqual_vec_tail_wrong (x y z w : BitVec 32) (t u : List (BitVec 32)) (eps : BitVec 64) :
    almostEqual_vec (x :: y :: z :: w :: t) (x :: y :: z :: w :: u) eps = almostEqual_vec [x, y, z, w] [x, y, z, w] eps := by
  unfold almostEqual_vec
  rfl
example : @almostEqual_vec .strict [0#32, 0#32, 0#32, 0#32, 0x3f800000#32] [0#32, 0#32, 0#32, 0#32, 0x40000000#32] 0#64 = .ok none := by
  decide +kernel
end

end Verif.Props
