import Verif.Attr
import Verif.Tables
import Verif.Bv
import Verif.Spec

/-! # Proof tools: evaluation rules and loop invariants -/

namespace Verif

/-! ## Evaluation of the outcome monad -/

@[csem] theorem ok_bind {α β} (a : α) (f : α → C β) : (C.ok a >>= f) = f a := rfl
@[csem] theorem ub_bind {α β} (u : UB) (f : α → C β) : (C.ub u >>= f) = .ub u := rfl
@[csem] theorem abort_bind {α β} (m : String) (f : α → C β) : (C.abort m >>= f) = .abort m := rfl
@[csem] theorem indet_bind {α β} (l) (f : α → C β) : (C.indet l >>= f) = .indet l := rfl
@[csem] theorem pure_eq {α} (a : α) : (pure a : C α) = .ok a := rfl
@[csem] theorem ite_bind {α β} (c : Prop) [Decidable c] (x y : C α) (f : α → C β) :
    ((if c then x else y) >>= f) = if c then x >>= f else y >>= f := by
  split <;> rfl
@[csem] theorem map_eq {α β} (f : α → β) (x : C α) : f <$> x = x >>= fun a => .ok (f a) := by
  rfl
theorem bind_ok {α} (x : C α) : (x >>= fun a => .ok a) = x := by
  cases x <;> rfl
theorem bind_assoc {α β γ} (x : C α) (f : α → C β) (g : β → C γ) :
    (x >>= f) >>= g = x >>= fun a => f a >>= g := by
  cases x <;> rfl

/-! ## Loops -/

theorem iter_inv {σ} {body : Nat → σ → C σ} (S : Nat → σ) {n : Nat}
    (h : ∀ k, k < n → body k (S k) = .ok (S (k + 1))) : iter body n (S 0) = .ok (S n) := by
  induction n with
  | zero => rfl
  | succ n ih =>
    rw [iter, ih fun k hk => h k (by omega)]
    exact h n (by omega)

theorem iter_or {σ} {body : Nat → σ → C σ} (S : Nat → σ) (P : Nat → Prop) (Q : C σ → Prop)
    (hQ : ∀ x f, Q x → Q (x >>= f)) {n : Nat}
    (h : ∀ k, k < n → P k → body k (S k) = .ok (S (k + 1)))
    (h' : ∀ k, k < n → ¬ P k → Q (body k (S k))) (hn : ¬ ∀ k, k < n → P k) :
    Q (iter body n (S 0)) := by
  induction n with
  | zero => exact absurd (fun k hk => by omega) hn
  | succ n ih =>
    rw [iter]
    by_cases hp : ∀ k, k < n → P k
    · rw [iter_inv S fun k hk => h k (by omega) (hp k hk)]
      apply h' n (by omega)
      intro hpn
      apply hn
      intro k hk
      by_cases hkn : k = n
      · exact hkn ▸ hpn
      · exact hp k (by omega)
    · exact hQ _ _ (ih (fun k hk => h k (by omega)) (fun k hk => h' k (by omega)) hp)

theorem iter_succ_left {σ} (body : Nat → σ → C σ) (n : Nat) (s : σ) :
    iter body (n + 1) s = body 0 s >>= iter (fun k => body (k + 1)) n := by
  induction n with
  | zero =>
    show (C.ok s >>= fun s => body 0 s) = body 0 s >>= fun s => C.ok s
    rw [bind_ok, ok_bind]
  | succ n ih =>
    rw [iter, ih, bind_assoc]
    rfl

/-- The C++ unfolding of `for (int i = lo; i < hi; i += step) body`. -/
theorem cfor_unfold {σ} (lo hi step : Int) (s : σ) (body : Int → σ → C σ) (hs : 0 < step) :
    cfor lo hi step s body =
      if lo < hi then body lo s >>= fun s => cfor (lo + step) hi step s body else .ok s := by
  unfold cfor
  split
  · rename_i h
    have hc : ((hi - lo + step - 1) / step).toNat
        = ((hi - (lo + step) + step - 1) / step).toNat + 1 := by
      have e : hi - lo + step - 1 = (hi - (lo + step) + step - 1) + step * 1 := by omega
      rw [e, Int.add_mul_ediv_left _ _ (by omega)]
      have : 0 ≤ (hi - (lo + step) + step - 1) / step := Int.ediv_nonneg (by omega) (by omega)
      omega
    rw [hc, iter_succ_left]
    congr 1
    · simp
    · funext s
      congr 1
      funext k
      congr 1
      rw [Int.natCast_add, Int.add_mul]
      omega
  · rename_i h
    have hc : ((hi - lo + step - 1) / step).toNat = 0 := by
      have : (hi - lo + step - 1) / step ≤ 0 := by
        have : hi - lo + step - 1 < 1 * step := by omega
        have := Int.ediv_lt_of_lt_mul hs this
        omega
      omega
    rw [hc]
    rfl

/-- Number of iterations of a unit-step loop. -/
theorem cfor_one {σ} (hi : Int) (n : Nat) (hn : hi = n) (s : σ) (body : Int → σ → C σ) :
    cfor 0 hi 1 s body = iter (fun k => body (k : Int)) n s := by
  subst hn
  unfold cfor
  have : (((n : Int) - 0 + 1 - 1) / 1).toNat = n := by simp
  rw [this]
  simp

theorem cfor_inv {σ} {lo hi step : Int} {s : σ} {body : Int → σ → C σ} (n : Nat) (S : Nat → σ)
    (hn : ((hi - lo + step - 1) / step).toNat = n) (h0 : S 0 = s)
    (h : ∀ k : Nat, k < n → body (lo + k * step) (S k) = .ok (S (k + 1))) :
    cfor lo hi step s body = .ok (S n) := by
  unfold cfor
  rw [hn, ← h0]
  exact iter_inv S h

/-! ## Filling a local register lane by lane -/

section fill
variable {e : Elem} {n : Nat}

/-- The state after `k` iterations of a loop that fills lane after lane. -/
def Arr.upto (f : Fin n → BitVec e.bits) (k : Nat) : Arr e n :=
  fun j => if j.val < k then some (f j) else none

theorem Arr.upto_zero (f : Fin n → BitVec e.bits) : Arr.upto f 0 = Arr.undef := by
  funext j; simp [Arr.upto, Arr.undef]

theorem Arr.upto_put (f : Fin n → BitVec e.bits) (k : Nat) (h : k < n) :
    (Arr.upto f k).put ⟨k, h⟩ (f ⟨k, h⟩) = Arr.upto f (k + 1) := by
  funext j
  unfold Arr.upto Arr.put
  by_cases hj : j = ⟨k, h⟩
  · subst hj; simp
  · have : j.val ≠ k := fun h' => hj (Fin.ext h')
    have : j.val < k ↔ j.val < k + 1 := by omega
    simp [hj, this]

theorem Arr.ret_some (f : Fin n → BitVec e.bits) {r : Arr e n} (h : r = fun j => some (f j)) :
    r.ret = .ok ⟨f⟩ := by
  subst h
  simp [Arr.ret]

theorem Arr.ret_upto (f : Fin n → BitVec e.bits) : (Arr.upto f n).ret = .ok ⟨f⟩ :=
  Arr.ret_some f (by funext j; simp [Arr.upto])

theorem fill_ok {hi : Int} {body : Int → Arr e n → C (Arr e n)} (hn : hi = n)
    (f : Fin n → BitVec e.bits)
    (h : ∀ (i : Fin n) (D : Arr e n), body ((i.val : Nat) : Int) D = .ok (D.put i (f i))) :
    (cfor 0 hi 1 Arr.undef body >>= fun D => D.ret) = .ok ⟨f⟩ := by
  rw [cfor_one hi n hn, ← Arr.upto_zero f,
    iter_inv (Arr.upto f) fun k hk => by rw [h ⟨k, hk⟩, Arr.upto_put]]
  exact Arr.ret_upto f

theorem fill_if {hi : Int} {body : Int → Arr e n → C (Arr e n)} (hn : hi = n)
    (f : Fin n → BitVec e.bits) (P : Fin n → Prop) [DecidablePred P] (u : UB)
    (h : ∀ (i : Fin n) (D : Arr e n),
      body ((i.val : Nat) : Int) D = if P i then .ok (D.put i (f i)) else .ub u) :
    (cfor 0 hi 1 Arr.undef body >>= fun D => D.ret) =
      if ∀ i, P i then .ok ⟨f⟩ else .ub u := by
  split
  · rename_i hp
    exact fill_ok hn f fun i D => by rw [h, if_pos (hp i)]
  · rename_i hp
    rw [cfor_one hi n hn, ← Arr.upto_zero f]
    rw [iter_or (Arr.upto f) (fun k => ∀ hk : k < n, P ⟨k, hk⟩) (· = .ub u)
      (fun x g hx => by rw [hx]; rfl)
      (fun k hk hpk => by rw [h ⟨k, hk⟩, if_pos (hpk hk), Arr.upto_put])
      (fun k hk hpk => by
        rw [h ⟨k, hk⟩, if_neg]
        exact fun hh => hpk fun _ => hh)
      (fun hall => hp fun i => hall i.val i.isLt i.isLt)]
    rfl

theorem fill_ub {hi : Int} {body : Int → Arr e n → C (Arr e n)} (hn : hi = n)
    (f : Fin n → BitVec e.bits) (P : Fin n → Prop)
    (h : ∀ (i : Fin n) (D : Arr e n), P i → body ((i.val : Nat) : Int) D = .ok (D.put i (f i)))
    (h' : ∀ (i : Fin n) (D : Arr e n), ¬ P i → ∃ u, body ((i.val : Nat) : Int) D = .ub u)
    (hp : ¬ ∀ i, P i) :
    ∃ u, (cfor 0 hi 1 Arr.undef body >>= fun D => D.ret) = .ub u := by
  rw [cfor_one hi n hn, ← Arr.upto_zero f]
  obtain ⟨u, hu⟩ := iter_or (body := fun k => body (k : Int)) (Arr.upto f)
    (fun k => ∀ hk : k < n, P ⟨k, hk⟩) (fun x => ∃ u, x = .ub u)
      (fun x g ⟨u, hx⟩ => ⟨u, by rw [hx]; rfl⟩)
      (fun k hk hpk => by rw [h ⟨k, hk⟩ _ (hpk hk), Arr.upto_put])
      (fun k hk hpk => h' ⟨k, hk⟩ _ fun hh => hpk fun _ => hh)
      (fun hall => hp fun i => hall i.val i.isLt i.isLt)
  exact ⟨u, by rw [hu]; rfl⟩

end fill

/-! ## Lanes -/

theorem Vec.get_eq {e n} (a : Vec e n) {i : Int} (h : 0 ≤ i ∧ i < n) :
    a.get i = .ok (.ofBits e (a.lane ⟨i.toNat, by omega⟩)) := by
  rw [Vec.get, dif_pos h]

@[csem] theorem Vec.get_fin {e n} (a : Vec e n) (i : Fin n) :
    a.get ((i.val : Nat) : Int) = .ok (.ofBits e (a.lane i)) := by
  rw [Vec.get_eq a ⟨by omega, by omega⟩]
  rfl

@[csem] theorem Arr.set_fin {e n} (r : Arr e n) (i : Fin n) (v : Val) :
    r.set ((i.val : Nat) : Int) v = v.toBits e >>= fun b => .ok (r.put i b) := by
  unfold Arr.set
  rw [dif_pos ⟨by omega, by omega⟩]
  rfl

theorem Arr.set_eq {e n} (r : Arr e n) {i : Int} (h : 0 ≤ i ∧ i < n) (v : Val) :
    r.set i v = v.toBits e >>= fun b => .ok (r.put ⟨i.toNat, by omega⟩ b) := by
  unfold Arr.set
  rw [dif_pos h]

attribute [csem] Val.stdMin Val.stdMax cAnd cOr

/-! ## Integer arithmetic -/

theorem toInt8 (x : BitVec 8) : -128 ≤ x.toInt ∧ x.toInt ≤ 127 := by
  have := BitVec.le_toInt x; have := BitVec.toInt_lt (x := x); omega
theorem toInt16 (x : BitVec 16) : -32768 ≤ x.toInt ∧ x.toInt ≤ 32767 := by
  have := BitVec.le_toInt x; have := BitVec.toInt_lt (x := x); omega
theorem toInt32 (x : BitVec 32) : -2147483648 ≤ x.toInt ∧ x.toInt ≤ 2147483647 := by
  have := BitVec.le_toInt x; have := BitVec.toInt_lt (x := x); omega
theorem toInt64 (x : BitVec 64) :
    -9223372036854775808 ≤ x.toInt ∧ x.toInt ≤ 9223372036854775807 := by
  have := BitVec.le_toInt x; have := BitVec.toInt_lt (x := x); omega

section
variable [Dialect]
@[csem] theorem mkInt_u32 (v : Int) : mkInt .u32 v = .ok (.int .u32 (v % 4294967296)) := by
  by_cases h : 0 ≤ v ∧ v ≤ 4294967295
  · rw [Int.emod_eq_of_lt (by omega) (by omega)]
    exact if_pos h
  · exact if_neg h
@[csem] theorem mkInt_u64 (v : Int) :
    mkInt .u64 v = .ok (.int .u64 (v % 18446744073709551616)) := by
  by_cases h : 0 ≤ v ∧ v ≤ 18446744073709551615
  · rw [Int.emod_eq_of_lt (by omega) (by omega)]
    exact if_pos h
  · exact if_neg h
theorem mkInt_i32 {v : Int} (h : -2147483648 ≤ v ∧ v ≤ 2147483647) :
    mkInt .i32 v = .ok (.int .i32 v) := by
  exact if_pos h
theorem mkInt_i64 {v : Int} (h : -9223372036854775808 ≤ v ∧ v ≤ 9223372036854775807) :
    mkInt .i64 v = .ok (.int .i64 v) := by
  exact if_pos h
end

theorem bmod8 {v : Int} (h : -128 ≤ v ∧ v ≤ 127) : v.bmod 256 = v := by
  apply Int.bmod_eq_of_le <;> omega
theorem bmod16 {v : Int} (h : -32768 ≤ v ∧ v ≤ 32767) : v.bmod 65536 = v := by
  apply Int.bmod_eq_of_le <;> omega
theorem bmod32 {v : Int} (h : -2147483648 ≤ v ∧ v ≤ 2147483647) : v.bmod 4294967296 = v := by
  apply Int.bmod_eq_of_le <;> omega
theorem bmod64 {v : Int} (h : -9223372036854775808 ≤ v ∧ v ≤ 9223372036854775807) :
    v.bmod 18446744073709551616 = v := by
  apply Int.bmod_eq_of_le <;> omega
theorem umod8 {v : Int} (h : 0 ≤ v ∧ v < 256) : v % 256 = v := by omega
theorem umod16 {v : Int} (h : 0 ≤ v ∧ v < 65536) : v % 65536 = v := by omega
theorem umod32 {v : Int} (h : 0 ≤ v ∧ v < 4294967296) : v % 4294967296 = v := by omega
theorem umod64 {v : Int} (h : 0 ≤ v ∧ v < 18446744073709551616) :
    v % 18446744073709551616 = v := by omega

section
variable [Dialect]
omit [Dialect] in
theorem fits32 (v : Int) : Spec.Fits 32 v ↔ -2147483648 ≤ v ∧ v ≤ 2147483647 := by
  simp [Spec.Fits]
omit [Dialect] in
theorem fits64 (v : Int) :
    Spec.Fits 64 v ↔ -9223372036854775808 ≤ v ∧ v ≤ 9223372036854775807 := by
  simp [Spec.Fits]
theorem mkInt_i32_if (v : Int) : mkInt .i32 v =
    if Spec.NoOverflow 32 v then .ok (.int .i32 (v.bmod 4294967296)) else .ub .signedOverflow := by
  by_cases h : -2147483648 ≤ v ∧ v ≤ 2147483647
  · have hf : Spec.NoOverflow 32 v := Or.inr ((fits32 v).2 h)
    rw [mkInt_i32 h, bmod32 h, if_pos hf]
  · refine (if_neg h).trans ?_
    by_cases hd : (Dialect.wrapv : Bool) = true
    · rw [if_neg (fun h => by simp [hd] at h), if_pos (show Spec.NoOverflow _ v from Or.inl hd)]
      rfl
    · rw [if_pos ⟨rfl, by simpa using hd⟩, if_neg]
      rintro (h' | h')
      · exact hd h'
      · exact h ((fits32 v).1 h')
theorem mkInt_i64_if (v : Int) : mkInt .i64 v =
    if Spec.NoOverflow 64 v then .ok (.int .i64 (v.bmod 18446744073709551616)) else .ub .signedOverflow := by
  by_cases h : -9223372036854775808 ≤ v ∧ v ≤ 9223372036854775807
  · have hf : Spec.NoOverflow 64 v := Or.inr ((fits64 v).2 h)
    rw [mkInt_i64 h, bmod64 h, if_pos hf]
  · refine (if_neg h).trans ?_
    by_cases hd : (Dialect.wrapv : Bool) = true
    · rw [if_neg (fun h => by simp [hd] at h), if_pos (show Spec.NoOverflow _ v from Or.inl hd)]
      rfl
    · rw [if_pos ⟨rfl, by simpa using hd⟩, if_neg]
      rintro (h' | h')
      · exact hd h'
      · exact h ((fits64 v).1 h')
end

theorem ite_ite_and {α} (p q : Prop) [Decidable p] [Decidable q] (x y : α) :
    (if p then (if q then x else y) else y) = if p ∧ q then x else y := by
  by_cases hp : p <;> by_cases hq : q <;> simp [hp, hq]

theorem mul_bound {x y A B : Int} (hx : -A ≤ x ∧ x ≤ A) (hy : -B ≤ y ∧ y ≤ B) :
    -(A * B) ≤ x * y ∧ x * y ≤ A * B := by
  have hA : 0 ≤ A := by omega
  have hB : 0 ≤ B := by omega
  have h : (x * y).natAbs ≤ (A * B).natAbs := by
    rw [Int.natAbs_mul, Int.natAbs_mul]
    exact Nat.mul_le_mul (by omega) (by omega)
  have : 0 ≤ A * B := Int.mul_nonneg hA hB
  omega

theorem mul_bound_nonneg {x y A B : Int} (hx : 0 ≤ x ∧ x ≤ A) (hy : 0 ≤ y ∧ y ≤ B) :
    0 ≤ x * y ∧ x * y ≤ A * B :=
  ⟨Int.mul_nonneg hx.1 hy.1, Int.mul_le_mul hx.2 hy.2 hy.1 (by omega)⟩

theorem smul8 (x y : BitVec 8) : -16384 ≤ x.toInt * y.toInt ∧ x.toInt * y.toInt ≤ 16384 := by
  have := toInt8 x; have := toInt8 y
  exact mul_bound (A := 128) (B := 128) (by omega) (by omega)
theorem smul16 (x y : BitVec 16) :
    -1073741824 ≤ x.toInt * y.toInt ∧ x.toInt * y.toInt ≤ 1073741824 := by
  have := toInt16 x; have := toInt16 y
  exact mul_bound (A := 32768) (B := 32768) (by omega) (by omega)
theorem smul32 (x y : BitVec 32) :
    -4611686018427387904 ≤ x.toInt * y.toInt ∧ x.toInt * y.toInt ≤ 4611686018427387904 := by
  have := toInt32 x; have := toInt32 y
  exact mul_bound (A := 2147483648) (B := 2147483648) (by omega) (by omega)
theorem umul8 (x y : BitVec 8) :
    0 ≤ (x.toNat : Int) * y.toNat ∧ (x.toNat : Int) * y.toNat ≤ 65025 :=
  mul_bound_nonneg (A := 255) (B := 255) (by omega) (by omega)
theorem umul16 (x y : BitVec 16) :
    0 ≤ (x.toNat : Int) * y.toNat ∧ (x.toNat : Int) * y.toNat ≤ 4294836225 :=
  mul_bound_nonneg (A := 65535) (B := 65535) (by omega) (by omega)
theorem umul32 (x y : BitVec 32) :
    0 ≤ (x.toNat : Int) * y.toNat ∧ (x.toNat : Int) * y.toNat ≤ 18446744065119617025 :=
  mul_bound_nonneg (A := 4294967295) (B := 4294967295) (by omega) (by omega)

/-- Evaluate model code; side conditions by linear arithmetic. -/
macro "csim" : tactic => `(tactic|
  simp (disch := omega) only [csem, mkInt_i32, mkInt_i64, bmod8, bmod16, bmod32, bmod64,
    umod8, umod16, umod32, umod64,
    ↓reduceIte, Int.reduceToNat, Int.reducePow, Int.reduceMul, Int.reduceNeg, Int.reduceSub,
    Int.reduceAdd, Int.reduceLE, Int.reduceLT, Int.reduceBmod, decide_eq_true_eq, Int.pow_zero])

/-- Evaluate model code with signed overflow made explicit. -/
macro "csim_ub" : tactic => `(tactic|
  simp (disch := omega) only [csem, mkInt_i32, mkInt_i64, mkInt_i32_if, mkInt_i64_if,
    bmod8, bmod16, bmod32, bmod64, umod8, umod16, umod32, umod64,
    ↓reduceIte, Int.reduceToNat, Int.reducePow, Int.reduceMul, Int.reduceNeg, Int.reduceSub,
    Int.reduceAdd, Int.reduceLE, Int.reduceLT, Int.reduceBmod, decide_eq_true_eq, Int.pow_zero,
    ite_ite_and])

section
variable [Dialect]
/-! `1 << k` for the shift counts that occur. -/
@[csem] theorem shl_one_7 (t : ITy) :
    Val.shl (.int .i32 1) (.int t 7) = .ok (.int .i32 128) :=
  if_neg (c := _ ∧ _ ∧ _) fun h => absurd h.2.2 (by decide)
@[csem] theorem shl_one_15 (t : ITy) :
    Val.shl (.int .i32 1) (.int t 15) = .ok (.int .i32 32768) :=
  if_neg (c := _ ∧ _ ∧ _) fun h => absurd h.2.2 (by decide)
@[csem] theorem shl_one_31 (t : ITy) :
    Val.shl (.int .i32 1) (.int t 31) = .ok (.int .i32 (-2147483648)) :=
  if_neg (c := _ ∧ _ ∧ _) fun h => absurd h.2.2 (by decide)

theorem noOverflow32_two (x y : Int) : (Spec.NoOverflow 32 x ∧ Spec.NoOverflow 32 (x.bmod 4294967296 + y)) =
    (Spec.NoOverflow 32 x ∧ Spec.NoOverflow 32 (x + y)) := by
  apply propext
  unfold Spec.NoOverflow
  by_cases hd : (Dialect.wrapv : Bool) = true
  · simp [hd]
  · simp only [hd, false_or, Bool.false_eq_true]
    constructor <;> rintro ⟨h, h'⟩ <;> refine ⟨h, ?_⟩ <;> rw [fits32] at h <;> rw [bmod32 h] at * <;> exact h'
theorem noOverflow64_two (x y : Int) : (Spec.NoOverflow 64 x ∧ Spec.NoOverflow 64 (x.bmod 18446744073709551616 + y)) =
    (Spec.NoOverflow 64 x ∧ Spec.NoOverflow 64 (x + y)) := by
  apply propext
  unfold Spec.NoOverflow
  by_cases hd : (Dialect.wrapv : Bool) = true
  · simp [hd]
  · simp only [hd, false_or, Bool.false_eq_true]
    constructor <;> rintro ⟨h, h'⟩ <;> refine ⟨h, ?_⟩ <;> rw [fits64] at h <;> rw [bmod64 h] at * <;> exact h'
end

/-- Normalise the bit vector stored in a lane. -/
macro "bvnorm" : tactic => `(tactic|
  simp (disch := decide) only [ofInt_emod, ofInt_bmod, ofInt_sub, BitVec.ofInt_add,
    BitVec.ofInt_mul, ofInt_toInt_ext, BitVec.signExtend_eq, ofInt_toNat, BitVec.setWidth_eq,
    ofInt_high8, ofInt_high16, ofInt_high32, Spec.high])

end Verif
