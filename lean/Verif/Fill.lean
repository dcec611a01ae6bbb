import Verif.Lemmas

/-! # Further loop lemmas: several loops, blocks of lanes, register arrays, memory -/

namespace Verif

theorem Vec.get_at {e n} (a : Vec e n) (k : Nat) {i : Int} (hk : k < n) (hi : i = k) :
    a.get i = .ok (.ofBits e (a.lane ⟨k, hk⟩)) := by
  subst hi
  exact Vec.get_fin a ⟨k, hk⟩

theorem Arr.set_at {e n} (r : Arr e n) (v : Val) (k : Nat) {i : Int} (hk : k < n) (hi : i = k) :
    r.set i v = v.toBits e >>= fun b => .ok (r.put ⟨k, hk⟩ b) := by
  subst hi
  exact Arr.set_fin r ⟨k, hk⟩ v

/-- The state after `k` iterations of a loop in which iteration `own j` writes lane `j`. -/
def Arr.partial {e : Elem} {n : Nat} (own : Fin n → Nat) (f : Fin n → BitVec e.bits) (k : Nat) : Arr e n :=
  fun j => if own j < k then some (f j) else none

theorem Arr.partial_zero {e : Elem} {n : Nat} (own : Fin n → Nat) (f : Fin n → BitVec e.bits) :
    Arr.partial own f 0 = Arr.undef := by
  funext j; simp [Arr.partial, Arr.undef]

theorem Arr.ret_partial {e : Elem} {n : Nat} (own : Fin n → Nat) (f : Fin n → BitVec e.bits) {k : Nat}
    (h : ∀ j, own j < k) : (Arr.partial own f k).ret = .ok ⟨f⟩ :=
  Arr.ret_some f (by funext j; simp [Arr.partial, h])

theorem Arr.partial_put {e : Elem} {n : Nat} (own : Fin n → Nat) (f : Fin n → BitVec e.bits)
    (k : Nat) (i : Fin n) (b : BitVec e.bits) (h1 : own i = k) (h2 : ∀ j, own j = k → j = i)
    (hb : b = f i) : (Arr.partial own f k).put i b = Arr.partial own f (k + 1) := by
  funext j
  unfold Arr.put Arr.partial
  by_cases hj : j = i
  · subst hj; rw [if_pos rfl, if_pos (by omega), hb]
  · rw [if_neg hj]
    have : own j ≠ k := fun h => hj (h2 j h)
    by_cases h : own j < k
    · rw [if_pos h, if_pos (by omega)]
    · rw [if_neg h, if_neg (by omega)]

/-- Lanes are written in increasing order. -/
theorem Arr.partial_put_val {e : Elem} {n : Nat} (f : Fin n → BitVec e.bits) (k : Nat) (i : Fin n)
    (b : BitVec e.bits) (h1 : i.val = k) (hb : b = f i) :
    (Arr.partial (fun j => j.val) f k).put i b = Arr.partial (fun j => j.val) f (k + 1) :=
  Arr.partial_put _ f k i b h1 (fun j hj => Fin.ext (by omega)) hb

/-- One loop in which iteration `own j` writes lane `j`. -/
theorem fill_own {e n} {lo hi step : Int} {body : Int → Arr e n → C (Arr e n)}
    (own : Fin n → Nat) (f : Fin n → BitVec e.bits) (cnt : Nat)
    (hc : ((hi - lo + step - 1) / step).toNat = cnt) (ho : ∀ j, own j < cnt)
    (h : ∀ k, k < cnt → body (lo + k * step) (Arr.partial own f k) = .ok (Arr.partial own f (k + 1))) :
    (cfor lo hi step Arr.undef body >>= fun D => D.ret) = .ok ⟨f⟩ := by
  rw [cfor_inv cnt (Arr.partial own f) hc (Arr.partial_zero own f) h]
  exact Arr.ret_partial own f ho

/-- Two loops: the first writes the lanes with `own j < c1`, the second the others. -/
theorem fill_own2 {e n} {lo1 hi1 step1 lo2 hi2 step2 : Int}
    {body1 body2 : Int → Arr e n → C (Arr e n)}
    (own : Fin n → Nat) (f : Fin n → BitVec e.bits) (c1 c2 : Nat)
    (hc1 : ((hi1 - lo1 + step1 - 1) / step1).toNat = c1)
    (hc2 : ((hi2 - lo2 + step2 - 1) / step2).toNat = c2) (ho : ∀ j, own j < c1 + c2)
    (h1 : ∀ k, k < c1 →
      body1 (lo1 + k * step1) (Arr.partial own f k) = .ok (Arr.partial own f (k + 1)))
    (h2 : ∀ k, k < c2 → body2 (lo2 + k * step2) (Arr.partial own f (c1 + k))
      = .ok (Arr.partial own f (c1 + (k + 1)))) :
    (cfor lo1 hi1 step1 Arr.undef body1 >>= fun D =>
      cfor lo2 hi2 step2 D body2 >>= fun D => D.ret) = .ok ⟨f⟩ := by
  rw [cfor_inv c1 (Arr.partial own f) hc1 (Arr.partial_zero own f) h1, ok_bind,
    cfor_inv (s := Arr.partial own f c1) c2 (fun k => Arr.partial own f (c1 + k)) hc2 rfl h2]
  exact Arr.ret_partial own f ho

/-- The second of two loops may fail. -/
theorem fill_own2_if {e n} {lo1 hi1 step1 : Int} {hi2 : Int}
    {body1 body2 : Int → Arr e n → C (Arr e n)}
    (own : Fin n → Nat) (f : Fin n → BitVec e.bits) (c1 c2 : Nat) (P : Fin c2 → Prop)
    [DecidablePred P] (u : UB)
    (hc1 : ((hi1 - lo1 + step1 - 1) / step1).toNat = c1)
    (hc2 : hi2 = c2) (ho : ∀ j, own j < c1 + c2)
    (h1 : ∀ k, k < c1 →
      body1 (lo1 + k * step1) (Arr.partial own f k) = .ok (Arr.partial own f (k + 1)))
    (h2 : ∀ k : Fin c2, body2 ((k.val : Nat) : Int) (Arr.partial own f (c1 + k))
      = if P k then .ok (Arr.partial own f (c1 + (k + 1))) else .ub u) :
    (cfor lo1 hi1 step1 Arr.undef body1 >>= fun D =>
      cfor 0 hi2 1 D body2 >>= fun D => D.ret) =
      if ∀ k, P k then .ok ⟨f⟩ else .ub u := by
  rw [cfor_inv c1 (Arr.partial own f) hc1 (Arr.partial_zero own f) h1, ok_bind, cfor_one hi2 c2 hc2]
  split
  · rename_i hp
    have e := iter_inv (body := fun k => body2 (k : Int)) (fun k => Arr.partial own f (c1 + k))
      (n := c2) fun k hk => by rw [h2 ⟨k, hk⟩, if_pos (hp _)]
    simp only [Nat.add_zero] at e
    rw [e]
    exact Arr.ret_partial own f ho
  · rename_i hp
    have e := iter_or (body := fun k => body2 (k : Int)) (fun k => Arr.partial own f (c1 + k))
      (fun k => ∀ hk : k < c2, P ⟨k, hk⟩) (· = .ub u) (fun x g hx => by rw [hx]; rfl) (n := c2)
      (fun k hk hpk => by rw [h2 ⟨k, hk⟩, if_pos (hpk hk)])
      (fun k hk hpk => by
        rw [h2 ⟨k, hk⟩, if_neg]
        exact fun hh => hpk fun _ => hh)
      (fun hall => hp fun i => hall i.val i.isLt i.isLt)
    simp only [Nat.add_zero] at e
    rw [e]
    rfl

/-- Single-lane registers written without a loop. -/
theorem fill_single {e} (v : Val) :
    ((Arr.undef : Arr e 1).set 0 v >>= fun D => D.ret) = v.toBits e >>= fun b => .ok ⟨fun _ => b⟩ := by
  rw [Arr.set_at (i := 0) _ v 0 (by omega) rfl, bind_assoc]
  congr 1
  funext b
  rw [ok_bind]
  apply Arr.ret_some (fun _ => b)
  funext j
  have : j = ⟨0, by omega⟩ := Fin.ext (by omega)
  simp [Arr.put, this]

/-! ## Register arrays -/

/-- The state after `k` iterations of a loop in which iteration `own j i` writes lane `i`
of register `j`. -/
def Arr2.partial {e : Elem} {n m : Nat} (own : Fin m → Fin n → Nat) (f : Fin m → Fin n → BitVec e.bits)
    (k : Nat) : Arr2 e n m :=
  fun j i => if own j i < k then some (f j i) else none

theorem Arr2.partial_zero {e : Elem} {n m : Nat} (own : Fin m → Fin n → Nat) (f : Fin m → Fin n → BitVec e.bits) :
    Arr2.partial own f 0 = Arr2.undef := by
  funext j i; simp [Arr2.partial, Arr2.undef]

theorem Arr2.ret_some {e n m} (f : Fin m → Fin n → BitVec e.bits) {r : Arr2 e n m}
    (h : ∀ j i, r j i = some (f j i)) : r.ret = .ok ⟨fun j => ⟨f j⟩⟩ := by
  unfold Arr2.ret
  rw [dif_pos (fun j i => by simp [h])]
  simp [h]

theorem Arr2.ret_partial {e : Elem} {n m : Nat} (own : Fin m → Fin n → Nat) (f : Fin m → Fin n → BitVec e.bits)
    {k : Nat} (h : ∀ j i, own j i < k) :
    (Arr2.partial own f k).ret = .ok ⟨fun j => ⟨f j⟩⟩ :=
  Arr2.ret_some f (by intro j i; simp [Arr2.partial, h])

theorem Arr2.set_at {e n m} (r : Arr2 e n m) (v : Val) (j i : Nat) {j' i' : Int}
    (hj : j < m) (hi : i < n) (ej : j' = j) (ei : i' = i) :
    r.set j' i' v = v.toBits e >>= fun b => .ok (r.put ⟨j, hj⟩ ⟨i, hi⟩ b) := by
  subst ej ei
  unfold Arr2.set
  rw [dif_pos (by omega)]
  rfl

theorem VecArr.get_at {e n m} (a : VecArr e n m) (j i : Nat) {j' i' : Int}
    (hj : j < m) (hi : i < n) (ej : j' = j) (ei : i' = i) :
    a.get j' i' = .ok (.ofBits e ((a.reg ⟨j, hj⟩).lane ⟨i, hi⟩)) := by
  subst ej ei
  unfold VecArr.get
  rw [dif_pos (by omega)]
  exact Vec.get_at _ i hi rfl

theorem fill2_own {e n m} {lo hi step : Int} {body : Int → Arr2 e n m → C (Arr2 e n m)}
    (own : Fin m → Fin n → Nat) (f : Fin m → Fin n → BitVec e.bits) (cnt : Nat)
    (hc : ((hi - lo + step - 1) / step).toNat = cnt) (ho : ∀ j i, own j i < cnt)
    (h : ∀ k, k < cnt →
      body (lo + k * step) (Arr2.partial own f k) = .ok (Arr2.partial own f (k + 1))) :
    (cfor lo hi step Arr2.undef body >>= fun D => D.ret) = .ok ⟨fun j => ⟨f j⟩⟩ := by
  rw [cfor_inv cnt (Arr2.partial own f) hc (Arr2.partial_zero own f) h]
  exact Arr2.ret_partial own f ho

theorem fill2_own2 {e n m} {lo1 hi1 step1 lo2 hi2 step2 : Int}
    {body1 body2 : Int → Arr2 e n m → C (Arr2 e n m)}
    (own : Fin m → Fin n → Nat) (f : Fin m → Fin n → BitVec e.bits) (c1 c2 : Nat)
    (hc1 : ((hi1 - lo1 + step1 - 1) / step1).toNat = c1)
    (hc2 : ((hi2 - lo2 + step2 - 1) / step2).toNat = c2) (ho : ∀ j i, own j i < c1 + c2)
    (h1 : ∀ k, k < c1 →
      body1 (lo1 + k * step1) (Arr2.partial own f k) = .ok (Arr2.partial own f (k + 1)))
    (h2 : ∀ k, k < c2 → body2 (lo2 + k * step2) (Arr2.partial own f (c1 + k))
      = .ok (Arr2.partial own f (c1 + (k + 1)))) :
    (cfor lo1 hi1 step1 Arr2.undef body1 >>= fun D =>
      cfor lo2 hi2 step2 D body2 >>= fun D => D.ret) = .ok ⟨fun j => ⟨f j⟩⟩ := by
  rw [cfor_inv c1 (Arr2.partial own f) hc1 (Arr2.partial_zero own f) h1, ok_bind,
    cfor_inv (s := Arr2.partial own f c1) c2 (fun k => Arr2.partial own f (c1 + k)) hc2 rfl h2]
  exact Arr2.ret_partial own f ho

theorem off_aux (y : Nat) (hy : y < 18446744073709551616) :
    (18446744069414584320 + y) % 18446744073709551616 / 4294967296 % 4294967296 =
      (4294967295 + y / 4294967296 % 4294967296) % 4294967296 := by
  have hq : y / 4294967296 < 4294967296 := by omega
  rw [Nat.mod_eq_of_lt hq]
  generalize hqq : y / 4294967296 = q at *
  have h1 : (18446744069414584320 + y) % 18446744073709551616 / 4294967296 = (4294967295 + q) % 4294967296 := by
    omega
  rw [h1, Nat.mod_mod]
theorem high_sub (y : BitVec 64) : Spec.high 32 (y - 4294967296#64) = Spec.high 32 y - 1#32 := by
  apply BitVec.eq_of_toNat_eq
  simp only [Spec.high, BitVec.toNat_sub, BitVec.extractLsb'_toNat, BitVec.toNat_ofNat,
    Nat.shiftRight_eq_div_pow, Nat.reducePow, Nat.reduceMod, Nat.reduceSub]
  exact off_aux y.toNat y.isLt
theorem off_by_one (x : BitVec 64) :
    Spec.high 32 (x + 18446744071562067968#64) = Spec.high 32 (x + 2147483648#64) - 1#32 := by
  have e : x + 18446744071562067968#64 = (x + 2147483648#64) - 4294967296#64 := by
    rw [BitVec.sub_eq_add_neg, BitVec.add_assoc]
    have : 18446744071562067968#64 = 2147483648#64 + -4294967296#64 := by decide
    rw [this]
  rw [e, high_sub]

theorem noOverflow32_two' [Dialect] (x y : Int) :
    (Spec.NoOverflow 32 x ∧ Spec.NoOverflow 32 (y + x.bmod 4294967296)) =
    (Spec.NoOverflow 32 x ∧ Spec.NoOverflow 32 (y + x)) := by
  rw [Int.add_comm y, Int.add_comm y, noOverflow32_two]

/-- Close the branches of a clamping computation. -/
macro "sat_close" : tactic => `(tactic|
  (congr 2; simp only [Spec.ssat, Spec.usat, Spec.clamp, Int.reducePow, Int.reduceNeg,
    Int.reduceSub, Nat.reduceSub]; congr 1; omega))

/-! ## Copies and permutations -/

/-- Reading an object and storing the value into an object of the same type copies it. -/
theorem toBits_ofBits (e : Elem) (b : BitVec e.bits) : Val.toBits e (Val.ofBits e b) = .ok b := by
  cases e with
  | int t =>
    have : BitVec.ofInt t.bits (intOfBits t b) = b := by
      unfold intOfBits
      split
      · exact BitVec.ofInt_toInt
      · rw [ofInt_toNat, BitVec.setWidth_eq]
    exact congrArg C.ok this
  | f32 => rfl
  | f64 => rfl

/-- Close the step of a loop that copies lanes: `D.put .. = partial (k + 1)`. -/
macro "perm_close" : tactic => `(tactic|
  (simp (disch := omega) only [Vec.get_eq, Arr.set_eq, toBits_ofBits, ok_bind, pure_eq];
   congr 1; funext j; simp only [Arr.put, Arr.partial, Fin.ext_iff]; repeat' split
   all_goals first
     | rfl
     | (exfalso; omega)
     | (refine congrArg some (congrArg (Vec.lane _) (Fin.ext ?_)); simp only; omega)))

theorem Arr2.set_eq {e n m} (r : Arr2 e n m) {j i : Int} (h : (0 ≤ j ∧ j < m) ∧ 0 ≤ i ∧ i < n)
    (v : Val) : r.set j i v =
      v.toBits e >>= fun b => .ok (r.put ⟨j.toNat, by omega⟩ ⟨i.toNat, by omega⟩ b) := by
  unfold Arr2.set
  rw [dif_pos h]

macro "perm2_close" : tactic => `(tactic|
  (simp (disch := omega) only [Vec.get_eq, Arr2.set_eq, toBits_ofBits, ok_bind, pure_eq];
   congr 1; funext j i; simp only [Arr2.put, Arr2.partial, Fin.ext_iff, Int.reduceToNat]
   repeat' split
   all_goals first
     | rfl
     | (exfalso; omega)
     | (refine congrArg some (congrArg (Vec.lane _) (Fin.ext ?_)); simp only; omega)))

/-- Close an equation between lanes selected by nested conditions. -/
macro "perm_dite" : tactic => `(tactic|
  (simp only [GetElem.getElem, if_true, Nat.one_ne_zero, if_false]
   repeat' split
   all_goals first
     | rfl
     | (exfalso; omega)
     | (refine congrArg (Vec.lane _) (Fin.ext ?_); simp only; omega)))

/-- A loop whose iteration `k0` is the first one to have undefined behaviour. -/
theorem cfor_ub {σ} {lo hi step : Int} {s : σ} {body : Int → σ → C σ} (k0 : Nat) (S : Nat → σ) (u : UB)
    (hn : k0 < ((hi - lo + step - 1) / step).toNat) (h0 : S 0 = s)
    (h : ∀ k : Nat, k < k0 → body (lo + k * step) (S k) = .ok (S (k + 1)))
    (hu : body (lo + k0 * step) (S k0) = .ub u) :
    cfor lo hi step s body = .ub u := by
  unfold cfor
  rw [← h0]
  generalize ((hi - lo + step - 1) / step).toNat = n at hn
  induction n with
  | zero => omega
  | succ n ih =>
    rw [iter]
    by_cases hk : k0 < n
    · rw [ih hk]; rfl
    · have : n = k0 := by omega
      subst this
      rw [iter_inv S h]
      exact hu

theorem Vec.get_oob {e n} (a : Vec e n) {i : Int} (h : ¬ (0 ≤ i ∧ i < n)) :
    a.get i = .ub .outOfBounds := dif_neg h

/-- A loop that leaves some lanes unwritten. -/
theorem fill_own_indet {e n} {lo hi step : Int} {body : Int → Arr e n → C (Arr e n)}
    (own : Fin n → Nat) (f : Fin n → BitVec e.bits) (cnt : Nat)
    (hc : ((hi - lo + step - 1) / step).toNat = cnt) (ho : ∃ j, ¬ own j < cnt)
    (h : ∀ k, k < cnt → body (lo + k * step) (Arr.partial own f k) = .ok (Arr.partial own f (k + 1))) :
    (cfor lo hi step Arr.undef body >>= fun D => D.ret) =
      .indet (List.ofFn fun j => if own j < cnt then some (f j).toNat else none) := by
  rw [cfor_inv cnt (Arr.partial own f) hc (Arr.partial_zero own f) h, ok_bind]
  unfold Arr.ret
  rw [dif_neg]
  · congr 2
    funext j
    unfold Arr.partial
    split <;> rfl
  · intro hh
    obtain ⟨j, hj⟩ := ho
    have := hh j
    simp [Arr.partial, hj] at this

/-! ## Bitwise operations -/

theorem setWidth_signExtend_self {w : Nat} (v : Nat) (x : BitVec w) (h : w ≤ v) :
    (x.signExtend v).setWidth w = x := by
  apply BitVec.eq_of_getLsbD_eq
  intro i hi
  rw [BitVec.getLsbD_setWidth, BitVec.getLsbD_signExtend]
  simp only [hi, if_true, decide_true, Bool.true_and, show i < v by omega]

theorem ofInt_toInt_trunc8 (z : BitVec 32) : BitVec.ofInt 8 z.toInt = z.setWidth 8 :=
  ofInt_toInt_trunc 8 z (by decide)
theorem ofInt_toInt_trunc16 (z : BitVec 32) : BitVec.ofInt 16 z.toInt = z.setWidth 16 :=
  ofInt_toInt_trunc 16 z (by decide)
theorem setWidth_ofInt8 (x : Int) : (BitVec.ofInt 32 x).setWidth 8 = BitVec.ofInt 8 x :=
  setWidth_ofInt x (by decide)
theorem setWidth_ofInt16 (x : Int) : (BitVec.ofInt 32 x).setWidth 16 = BitVec.ofInt 16 x :=
  setWidth_ofInt x (by decide)
theorem ofInt_toInt_self {w : Nat} (z : BitVec w) : BitVec.ofInt w z.toInt = z := BitVec.ofInt_toInt
theorem ofInt_toNat_self {w : Nat} (z : BitVec w) : BitVec.ofInt w (z.toNat : Int) = z := by
  rw [ofInt_toNat, BitVec.setWidth_eq]
theorem setWidth_not' {w v : Nat} (x : BitVec w) (h : v ≤ w) :
    (~~~ x).setWidth v = ~~~ (x.setWidth v) := by
  apply BitVec.eq_of_getLsbD_eq
  intro i hi
  simp [hi, show i < w by omega]

macro "bitnorm" : tactic => `(tactic|
  simp (disch := decide) only [ofInt_toInt_trunc8, ofInt_toInt_trunc16, ofInt_toInt_self,
    ofInt_toNat_self, BitVec.setWidth_and, BitVec.setWidth_or, BitVec.setWidth_xor, setWidth_not',
    setWidth_ofInt8, setWidth_ofInt16])

/-! ## Shifts by a variable amount -/

theorem two_pow_lt {k m : Nat} (h : k < m) : (2 : Int) ^ k < 2 ^ m :=
  by exact_mod_cast Nat.pow_lt_pow_right (by decide) h
theorem two_pow_le {k m : Nat} (h : k ≤ m) : (2 : Int) ^ k ≤ 2 ^ m :=
  by exact_mod_cast Nat.pow_le_pow_right (by decide) h
theorem two_pow_pos (k : Nat) : (0 : Int) < 2 ^ k := by exact_mod_cast Nat.two_pow_pos k

/-- `1 << k` -/
theorem shl_one [Dialect] (k : Nat) (hk : k < 31) :
    Val.shl (.int .i32 1) (.int .i32 (k : Int)) = .ok (.int .i32 (2 ^ k)) := by
  have h1 : (2 : Int) ^ k ≤ 2 ^ 30 := two_pow_le (by omega)
  have h0 := two_pow_pos k
  have h2 : (2 : Int) ^ 30 = 1073741824 := by decide
  rw [shl_i32_i32 (by omega)]
  · simp only [Int.toNat_natCast, Int.one_mul]
    rw [bmod32 (by omega)]
  · simp only [Int.toNat_natCast, Int.one_mul]
    omega

/-- Dividing by a power of two keeps a symmetric range. -/
theorem div_bound {x A B : Int} (n : Nat) (h : A ≤ x ∧ x ≤ B) (hA : A ≤ 0 ∧ 0 ≤ B) :
    A ≤ x / 2 ^ n ∧ x / 2 ^ n ≤ B := by
  have h0 := two_pow_pos n
  constructor
  · rw [Int.le_ediv_iff_mul_le h0]
    have : A * 2 ^ n ≤ A * 1 := Int.mul_le_mul_of_nonpos_left hA.1 (by omega)
    omega
  · by_cases hx : 0 ≤ x
    · exact Int.le_trans (Int.ediv_le_self _ hx) h.2
    · have := Int.ediv_neg_of_neg_of_pos (show x < 0 by omega) h0
      omega
theorem div_bound_nonneg {x B : Int} (n : Nat) (h : 0 ≤ x ∧ x ≤ B) : 0 ≤ x / 2 ^ n ∧ x / 2 ^ n ≤ B :=
  div_bound n h ⟨Int.le_refl 0, Int.le_trans h.1 h.2⟩
/-- A rounding shift keeps the range of `int16_t`. -/
theorem div_bound' {x : Int} (n : Nat) (hn : 1 ≤ n) (h : -32768 ≤ x ∧ x ≤ 32767) :
    -32768 ≤ (x + 2 ^ (n - 1)) / 2 ^ n ∧ (x + 2 ^ (n - 1)) / 2 ^ n ≤ 32767 := by
  have h0 := two_pow_pos n
  have h1 := two_pow_pos (n - 1)
  have e : (2 : Int) ^ n = 2 * 2 ^ (n - 1) := by
    obtain ⟨m, rfl⟩ : ∃ m, n = m + 1 := ⟨n - 1, by omega⟩
    rw [Nat.add_sub_cancel, Int.pow_succ, Int.mul_comm]
  generalize (2 : Int) ^ (n - 1) = p at *
  rw [e]
  constructor
  · rw [Int.le_ediv_iff_mul_le (by omega)]
    omega
  · rw [← Int.lt_add_one_iff, Int.ediv_lt_iff_lt_mul (by omega)]
    omega

theorem half_bound {x : Int} (n : Nat) (hn : 1 ≤ n) (h : -2147483648 ≤ x ∧ x ≤ 2147483647) :
    -1073741824 ≤ x / 2 ^ n ∧ x / 2 ^ n ≤ 1073741823 := by
  have h0 := two_pow_pos (n - 1)
  have e : (2 : Int) ^ n = 2 * 2 ^ (n - 1) := by
    obtain ⟨m, rfl⟩ : ∃ m, n = m + 1 := ⟨n - 1, by omega⟩
    rw [Nat.add_sub_cancel, Int.pow_succ, Int.mul_comm]
  rw [e, ← Int.ediv_ediv_of_nonneg (by decide)]
  exact div_bound (n - 1) (by omega) (by decide)

/-- `x << n` on `int`. -/
theorem shl_s32 [Dialect] (x : BitVec 32) (n : Nat) (hn : n < 32) :
    Val.shl (.ofBits .s32 x) (vint n) =
      if Dialect.wrapv = true ∨ (0 ≤ x.toInt ∧ x.toInt * 2 ^ n < 2 ^ 32)
      then .ok (.int .i32 (x <<< n).toInt) else .ub .shiftOperand := by
  show (if 0 ≤ (n : Int) ∧ (n : Int) < 32 then _ else _) = _
  rw [if_pos (by omega)]
  have e : (x <<< n).toInt = ITy.wrap .i32 (intOfBits .i32 x * 2 ^ n) := by
    rw [BitVec.toInt_shiftLeft, Nat.shiftLeft_eq]
    show _ = Int.bmod (x.toInt * 2 ^ n) (2 ^ 32)
    rw [BitVec.toInt_eq_toNat_bmod, Int.bmod_mul_bmod]
    simp
  rw [e]
  simp only [Int.toNat_natCast]
  by_cases hd : (Dialect.wrapv : Bool) = true
  · rw [if_neg (by simp [hd]), if_pos (.inl hd)]
    rfl
  · by_cases hx : 0 ≤ x.toInt ∧ x.toInt * 2 ^ n < 2 ^ 32
    · rw [if_pos (c := Dialect.wrapv = true ∨ _) (.inr hx)]
      refine if_neg (c := _ ∧ _ ∧ _) ?_
      rintro ⟨_, _, h | h⟩
      · exact absurd h (by show ¬ x.toInt < 0; omega)
      · exact absurd h (by show ¬ (2 : Int) ^ 32 ≤ x.toInt * 2 ^ n; omega)
    · rw [if_neg (c := Dialect.wrapv = true ∨ _) (fun h => h.elim hd hx)]
      refine if_pos (c := _ ∧ _ ∧ _) ⟨rfl, by simpa using hd, ?_⟩
      show x.toInt < 0 ∨ (2 : Int) ^ 32 ≤ x.toInt * 2 ^ n
      omega

/-- `x << n` on a promoted `uint16_t`. -/
theorem shl_u16 [Dialect] (x n : Nat) (hn : n < 31) (hx : x * 2 ^ n < 65536) :
    Val.shl (.int .u16 x) (vint n) = .ok (.int .i32 ((x * 2 ^ n : Nat) : Int)) := by
  have e : (x : Int) * 2 ^ n = ((x * 2 ^ n : Nat) : Int) := by simp
  rw [shl_u16_i32 (by omega)]
  · rw [Int.toNat_natCast, e, bmod32 (by omega)]
  · rw [Int.toNat_natCast, e]
    omega

theorem ofInt_natCast' (w n : Nat) : BitVec.ofInt w ((n : Nat) : Int) = BitVec.ofNat w n :=
  BitVec.ofInt_natCast w n
theorem shl_ofNat {v w : Nat} (x : BitVec v) (n : Nat) :
    BitVec.ofNat w (x.toNat * 2 ^ n) = x.setWidth w <<< n := by
  apply BitVec.eq_of_toNat_eq
  rw [BitVec.toNat_shiftLeft, BitVec.toNat_setWidth, Nat.shiftLeft_eq, BitVec.toNat_ofNat]
  simp [Nat.mod_mul_mod]

theorem never_ok {e n} (x : C Unit) (h : ∃ _ : Fin n, True) (r : Vec e n) :
    (x >>= fun _ => (Arr.undef : Arr e n).ret) ≠ .ok r := by
  obtain ⟨i, _⟩ := h
  cases x with
  | ok _ =>
    rw [ok_bind, Arr.ret, dif_neg]
    · exact fun h => by cases h
    · exact fun hh => by have := hh i; simp [Arr.undef] at this
  | _ => exact fun h => by cases h

theorem unit_loop {lo hi step : Int} {body : Int → Unit → C Unit} {cnt : Nat}
    (hc : ((hi - lo + step - 1) / step).toNat = cnt)
    (h : ∀ k : Nat, k < cnt → body (lo + k * step) () = .ok ()) :
    cfor lo hi step () body = .ok () :=
  cfor_inv cnt (fun _ => ()) hc rfl h

end Verif
