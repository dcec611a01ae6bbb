#!/usr/bin/env python3
"""Write Props/TestUtil.lean: tools/testutil_head.txt, then one section per overload of almostEqual."""
import os
D = os.path.dirname(os.path.abspath(__file__))
out = open(D + '/testutil_head.txt').read()
INT = [("u8x8", "uint8x8_t", 8, 8, "u8", "toNat"), ("s8x8", "int8x8_t", 8, 8, "i8", "toInt"),
       ("u16x8", "uint16x8_t", 8, 16, "u16", "toNat"), ("s16x8", "int16x8_t", 8, 16, "i16", "toInt"),
       ("s8x16", "int8x16_t", 16, 8, "i8", "toInt"), ("s16x4", "int16x4_t", 4, 16, "i16", "toInt")]
for n, ty, k, w, t, f in INT:
    cast = (lambda x: f"(({x}).toNat : ℤ)") if f == "toNat" else (lambda x: f"({x}).toInt")
    E, A = cast("e.lane i"), cast("a.lane i")
    q = f"|(({E} : ℤ) : ℚ) - ({A} : ℤ)|"
    bnd = f"bndU{w} _" if f == "toNat" else f"bnd{w} _"
    out += f'''
/-! ## `{ty}` -/

section
variable [Dialect]

/-- A lane exceeds the tolerance: the exact difference of the two integers is greater. -/
def Exceeds_{n} (e a : {ty}) (eps : BitVec 64) (i : Fin {k}) : Prop :=
  (decode .b64 eps.toNat).Less (.num false {q})

theorem almostEqual_{n}_lane (e a : {ty}) (eps : BitVec 64) (i : Fin {k}) :
    ∃ d : BitVec 64, decode .b64 d.toNat = .num false {q} ∧
      laneBody ((i.val : ℕ) : ℤ) (.ofBits (.int .{t}) (e.lane i)) (.ofBits (.int .{t}) (a.lane i)) eps =
        if Fmt.b64.lt eps.toNat d.toNat = true then .ok (some ⟨((i.val : ℕ) : ℤ), {A}, {E}, d, eps⟩) else .ok none :=
  laneBody_int _ .{t} {E} {A} eps (by decide) ({bnd}) ({bnd})

theorem almostEqual_{n}_body (e a : {ty}) (eps : BitVec 64) (i : Fin {k}) :
    (do
      let diff := stdFabs (← Val.sub (← Val.cast .f64 (← e.get ((i.val : ℕ) : ℤ))) (← Val.cast .f64 (← a.get ((i.val : ℕ) : ℤ))))
      if Val.gt diff (.f64 eps) then
        let a ← Val.cast .s32 (← a.get ((i.val : ℕ) : ℤ))
        let e ← Val.cast .s32 (← e.get ((i.val : ℕ) : ℤ))
        pure (some ⟨((i.val : ℕ) : ℤ), intVal a, intVal e, diff.toF64, eps⟩)
      else pure none : C (Option Report)) =
    laneBody ((i.val : ℕ) : ℤ) (.ofBits (.int .{t}) (e.lane i)) (.ofBits (.int .{t}) (a.lane i)) eps :=
  laneBody_of (Vec.get_fin e i) (Vec.get_fin a i)

theorem almostEqual_{n}_lane_none (e a : {ty}) (eps : BitVec 64) (i : Fin {k}) :
    laneBody ((i.val : ℕ) : ℤ) (.ofBits (.int .{t}) (e.lane i)) (.ofBits (.int .{t}) (a.lane i)) eps = .ok none ↔
      ¬ Exceeds_{n} e a eps i := by
  obtain ⟨d, hd, h⟩ := almostEqual_{n}_lane e a eps i
  rw [h, ite_none, lt_iff ok64 (lt64 _) (lt64 _)]
  unfold Exceeds_{n}
  rw [hd]

/-- `almostEqual` on `{ty}` returns `true` exactly when no lane differs by more than `eps`. -/
theorem almostEqual_{n}_passes (e a : {ty}) (eps : BitVec 64) :
    almostEqual_{n} e a eps = .ok none ↔ ∀ i, ¬ Exceeds_{n} e a eps i := by
  unfold almostEqual_{n}
  rw [forRet_none (almostEqual_{n}_body e a eps)]
  exact forall_congr' (almostEqual_{n}_lane_none e a eps)
example : @almostEqual_{n} .strict ⟨fun _ => 3#{w}⟩ ⟨fun _ => 1#{w}⟩ 0x4000000000000000#64 = .ok none := by decide +kernel

/-- Otherwise it reports the first lane that does, the two values, their exact distance and `eps`. -/
theorem almostEqual_{n}_reports (e a : {ty}) (eps : BitVec 64) (r : Report) (h : almostEqual_{n} e a eps = .ok (some r)) :
    ∃ i : Fin {k}, (∀ j, j < i → ¬ Exceeds_{n} e a eps j) ∧ Exceeds_{n} e a eps i ∧
      r.index = i.val ∧ r.actual = {A} ∧ r.expected = {E} ∧
      decode .b64 r.diff.toNat = .num false {q} ∧ r.eps = eps := by
  unfold almostEqual_{n} at h
  rw [forRet_other (almostEqual_{n}_body e a eps) _ (by simp)] at h
  obtain ⟨i, h1, h2⟩ := h
  refine ⟨i, fun j hj => (almostEqual_{n}_lane_none e a eps j).1 (h1 j hj), ?_⟩
  obtain ⟨d, hd, h'⟩ := almostEqual_{n}_lane e a eps i
  rw [h'] at h2
  split at h2
  · rename_i hl
    cases h2
    rw [lt_iff ok64 (lt64 _) (lt64 _), hd] at hl
    exact ⟨hl, rfl, rfl, rfl, hd, rfl⟩
  · cases h2
example : @almostEqual_{n} .strict ⟨fun _ => 3#{w}⟩ ⟨fun _ => 1#{w}⟩ 0#64 =
    .ok (some ⟨0, 1, 3, 0x4000000000000000#64, 0#64⟩) := by decide +kernel

/-- There is no other outcome. -/
theorem almostEqual_{n}_returns (e a : {ty}) (eps : BitVec 64) : ∃ o, almostEqual_{n} e a eps = .ok o := by
  unfold almostEqual_{n}
  refine forRet_ok (almostEqual_{n}_body e a eps) fun i => ?_
  obtain ⟨d, -, h⟩ := almostEqual_{n}_lane e a eps i
  rw [h]
  split
  · exact ⟨_, rfl⟩
  · exact ⟨_, rfl⟩

/-- With the default tolerance it decides equality. -/
theorem almostEqual_{n}_exact (e a : {ty}) : almostEqual_{n} e a 0#64 = .ok none ↔ e = a := by
  rw [almostEqual_{n}_passes]
  constructor
  · intro h
    apply Vec.ext
    funext i
    have := h i
    unfold Exceeds_{n} at this
    have h0 : ({E} : ℤ) = {A} := not_less_zero this
    {"exact BitVec.eq_of_toNat_eq (by exact_mod_cast h0)" if f == "toNat" else "exact BitVec.eq_of_toInt_eq h0"}
  · rintro rfl i
    unfold Exceeds_{n}
    rw [sub_self, abs_zero]
    exact not_less_self
example : ∃ e a : {ty}, e ≠ a := ⟨⟨fun _ => 1#{w}⟩, ⟨fun _ => 2#{w}⟩, fun h => absurd (congrFun (congrArg Vec.lane h) 0) (by decide)⟩
end
'''
out += '''
/-! ## `uint8x8x2_t` -/

section
variable [Dialect]

theorem almostEqual_u8x8x2_body (e a : uint8x8x2_t) (i : Fin 2) :
    (if h : (0 : Int) ≤ ((i.val : ℕ) : ℤ) ∧ ((i.val : ℕ) : ℤ) < 2 then
      almostEqual_u8x8 (e.reg ⟨((i.val : ℕ) : ℤ).toNat, by omega⟩) (a.reg ⟨((i.val : ℕ) : ℤ).toNat, by omega⟩) 0#64
    else .ub .outOfBounds : C (Option Report)) = almostEqual_u8x8 (e.reg i) (a.reg i) 0#64 := by
  rw [dif_pos ⟨by omega, by omega⟩]
  rfl

/-- `almostEqual` on `uint8x8x2_t` decides equality. -/
theorem almostEqual_u8x8x2_exact (e a : uint8x8x2_t) : almostEqual_u8x8x2 e a = .ok none ↔ e = a := by
  unfold almostEqual_u8x8x2
  rw [forRet_none (almostEqual_u8x8x2_body e a)]
  constructor
  · intro h
    apply VecArr.ext
    funext i
    exact (almostEqual_u8x8_exact _ _).1 (h i)
  · rintro rfl i
    exact (almostEqual_u8x8_exact _ _).2 rfl
example : @almostEqual_u8x8x2 .strict ⟨fun _ => ⟨fun _ => 3#8⟩⟩ ⟨fun i => ⟨fun _ => if i = 1 then 2#8 else 3#8⟩⟩ =
    .ok (some ⟨0, 2, 3, 0x3ff0000000000000#64, 0#64⟩) := by decide +kernel

/-- There is no other outcome than returning `true` or `false`. -/
theorem almostEqual_u8x8x2_returns (e a : uint8x8x2_t) : ∃ o, almostEqual_u8x8x2 e a = .ok o := by
  unfold almostEqual_u8x8x2
  exact forRet_ok (almostEqual_u8x8x2_body e a) fun i => almostEqual_u8x8_returns _ _ _

/-- The report is the one of the first differing half. -/
theorem almostEqual_u8x8x2_reports (e a : uint8x8x2_t) (r : Report) (h : almostEqual_u8x8x2 e a = .ok (some r)) :
    ∃ k : Fin 2, ∃ i : Fin 8, (∀ l, l < k → e.reg l = a.reg l) ∧
      (∀ j, j < i → (e.reg k).lane j = (a.reg k).lane j) ∧ (e.reg k).lane i ≠ (a.reg k).lane i ∧
      r.index = i.val ∧ r.actual = ((a.reg k).lane i).toNat ∧ r.expected = ((e.reg k).lane i).toNat := by
  unfold almostEqual_u8x8x2 at h
  rw [forRet_other (almostEqual_u8x8x2_body e a) _ (by simp)] at h
  obtain ⟨k, h1, h2⟩ := h
  obtain ⟨i, h3, h4, h5, h6, h7, -, -⟩ := almostEqual_u8x8_reports _ _ _ _ h2
  refine ⟨k, i, fun l hl => (almostEqual_u8x8_exact _ _).1 (h1 l hl), fun j hj => ?_, fun he => ?_, h5, h6, h7⟩
  · have h0 := not_less_zero (h3 j hj)
    exact BitVec.eq_of_toNat_eq (by exact_mod_cast h0)
  · unfold Exceeds_u8x8 at h4
    rw [he, sub_self, abs_zero] at h4
    exact not_less_self h4

end

/-! ## `float32x4_t` -/

section
variable [Dialect]

/-- A lane exceeds the tolerance: the distance, rounded to `double`, is greater. -/
def Exceeds_f32x4 (e a : float32x4_t) (eps : BitVec 64) (i : Fin 4) : Prop :=
  FarApart .b64 (decode .b64 eps.toNat) (decode .b32 (e.lane i).toNat) (decode .b32 (a.lane i).toNat)

theorem almostEqual_f32x4_body (e a : float32x4_t) (eps : BitVec 64) (i : Fin 4) :
    (do
      let diff := stdFabs (← Val.sub (← Val.cast .f64 (← e.get ((i.val : ℕ) : ℤ))) (← Val.cast .f64 (← a.get ((i.val : ℕ) : ℤ))))
      if Val.gt diff (.f64 eps) then
        let a ← Val.cast .s32 (← a.get ((i.val : ℕ) : ℤ))
        let e ← Val.cast .s32 (← e.get ((i.val : ℕ) : ℤ))
        pure (some ⟨((i.val : ℕ) : ℤ), intVal a, intVal e, diff.toF64, eps⟩)
      else pure none : C (Option Report)) =
    laneOut ((i.val : ℕ) : ℤ) (e.lane i) (a.lane i) (dist64 (e.lane i) (a.lane i)) eps :=
  (laneBody_of (Vec.get_fin e i) (Vec.get_fin a i)).trans (laneBody_f32 _ _ _ _)

omit [Dialect] in
theorem exceeds_f32x4_iff {e a : float32x4_t} {eps : BitVec 64} {i : Fin 4} :
    (decode .b64 eps.toNat).Less (decode .b64 (dist64 (e.lane i) (a.lane i)).toNat) ↔ Exceeds_f32x4 e a eps i :=
  less_iff ok64 (isDist64 _ _)

/-- `almostEqual` on `float32x4_t` returns `true` exactly when no lane exceeds the tolerance. -/
theorem almostEqual_f32x4_passes (e a : float32x4_t) (eps : BitVec 64) :
    almostEqual_f32x4 e a eps = .ok none ↔ ∀ i, ¬ Exceeds_f32x4 e a eps i := by
  unfold almostEqual_f32x4
  rw [forRet_none (almostEqual_f32x4_body e a eps)]
  exact forall_congr' fun i => laneOut_none.trans exceeds_f32x4_iff.not
example : @almostEqual_f32x4 .strict ⟨fun _ => 0x40400000#32⟩ ⟨fun _ => 0x3f800000#32⟩ 0x4000000000000000#64 = .ok none := by decide +kernel

/-- Numbers no further apart than `eps` are accepted. -/
theorem almostEqual_f32x4_accepts (e a : float32x4_t) (eps : BitVec 64) (s : Bool) (v : ℚ)
    (he : decode .b64 eps.toNat = .num s v)
    (h : ∀ i, ∃ t x u y, decode .b32 (e.lane i).toNat = .num t x ∧ decode .b32 (a.lane i).toNat = .num u y ∧ |x - y| ≤ v) :
    almostEqual_f32x4 e a eps = .ok none := by
  rw [almostEqual_f32x4_passes]
  intro i
  obtain ⟨t, x, u, y, hx, hy, h⟩ := h i
  unfold Exceeds_f32x4
  rw [he, hx, hy]
  exact near_not_far he h
example : ∃ t x u y, decode .b32 (0x40400000#32).toNat = .num t x ∧ decode .b32 (0x3f800000#32).toNat = .num u y ∧
    |x - y| ≤ 2 := by
  refine ⟨false, 3, false, 1, ?_, ?_, by norm_num⟩
  · simp [decode, expField, fracField, signField, withSign, emax, show Nat.testBit 1077936128 31 = false by decide]
    norm_num
  · simp [decode, expField, fracField, signField, withSign, emax, show Nat.testBit 1065353216 31 = false by decide]

/-- With the default tolerance: every lane is equal in value, or not a number in one of the operands. -/
theorem almostEqual_f32x4_exact (e a : float32x4_t) : almostEqual_f32x4 e a 0#64 = .ok none ↔
    ∀ i, NanOrEqual (decode .b32 (e.lane i).toNat) (decode .b32 (a.lane i).toNat) := by
  rw [almostEqual_f32x4_passes]
  refine forall_congr' fun i => ?_
  unfold Exceeds_f32x4
  rw [show decode .b64 (0#64).toNat = .num false 0 from decode_zero ok64, farApart_zero64, not_not]

/-- A failing comparison reports the first lane that exceeds the tolerance, with the integral parts of the
two values. -/
theorem almostEqual_f32x4_reports (e a : float32x4_t) (eps : BitVec 64) (r : Report)
    (h : almostEqual_f32x4 e a eps = .ok (some r)) :
    ∃ i : Fin 4, (∀ j, j < i → ¬ Exceeds_f32x4 e a eps j) ∧ Exceeds_f32x4 e a eps i ∧
      r.index = i.val ∧ IsInt (decode .b32 (a.lane i).toNat) r.actual ∧ IsInt (decode .b32 (e.lane i).toNat) r.expected ∧
      IsDist .b64 (decode .b32 (e.lane i).toNat) (decode .b32 (a.lane i).toNat) (decode .b64 r.diff.toNat) ∧ r.eps = eps := by
  unfold almostEqual_f32x4 at h
  rw [forRet_other (almostEqual_f32x4_body e a eps) _ (by simp)] at h
  obtain ⟨i, h1, h2⟩ := h
  obtain ⟨l, ha, he, hi, hd, hp⟩ := laneOut_some.1 h2
  exact ⟨i, fun j hj => (laneOut_none.trans exceeds_f32x4_iff.not).1 (h1 j hj), exceeds_f32x4_iff.1 l, hi, ha, he,
    hd ▸ isDist64 _ _, hp⟩
example : @almostEqual_f32x4 .strict ⟨fun _ => 0x40400000#32⟩ ⟨fun _ => 0x3f800000#32⟩ 0#64 =
    .ok (some ⟨0, 1, 3, 0x4000000000000000#64, 0#64⟩) := by decide +kernel

/-- The message is undefined behaviour exactly when one of the values of the first lane that exceeds the
tolerance has no `int` conversion. -/
theorem almostEqual_f32x4_ub_iff (e a : float32x4_t) (eps : BitVec 64) :
    almostEqual_f32x4 e a eps = .ub .floatToInt ↔
    ∃ i : Fin 4, (∀ j, j < i → ¬ Exceeds_f32x4 e a eps j) ∧ Exceeds_f32x4 e a eps i ∧
      ¬ ((∃ n, IsInt (decode .b32 (a.lane i).toNat) n) ∧ ∃ n, IsInt (decode .b32 (e.lane i).toNat) n) := by
  unfold almostEqual_f32x4
  rw [forRet_other (almostEqual_f32x4_body e a eps) _ (by simp)]
  refine exists_congr fun i => ?_
  rw [laneOut_ub, exceeds_f32x4_iff]
  exact and_congr_left' (forall_congr' fun j => imp_congr_right fun _ => laneOut_none.trans exceeds_f32x4_iff.not)

/-- There is no other outcome. -/
theorem almostEqual_f32x4_outcomes (e a : float32x4_t) (eps : BitVec 64) :
    (∃ o, almostEqual_f32x4 e a eps = .ok o) ∨ almostEqual_f32x4 e a eps = .ub .floatToInt := by
  unfold almostEqual_f32x4
  exact forRet_cases (almostEqual_f32x4_body e a eps) fun i => laneOut_cases _ _ _ _ _

/-- A result that is not a number passes for any expected value. -/
theorem almostEqual_f32x4_nan_wrong (e : float32x4_t) (eps : BitVec 64) :
    almostEqual_f32x4 e ⟨fun _ => 0x7fc00000#32⟩ eps = .ok none := by
  rw [almostEqual_f32x4_passes]
  rintro i ⟨d, h, l⟩
  have : decode .b32 (0x7fc00000#32).toNat = .nan := by simp [decode, expField, fracField]
  rw [show (⟨fun _ => 0x7fc00000#32⟩ : float32x4_t).lane i = 0x7fc00000#32 from rfl, this] at h
  have hd : d = .nan := by
    revert h
    cases decode .b32 (e.lane i).toNat <;> exact id
  rw [hd] at l
  revert l
  cases decode .b64 eps.toNat with
  | inf s => cases s <;> exact id
  | _ => exact id
/-- Comparing 1.0 with 4294967296.0 has undefined behaviour instead of failing. -/
theorem almostEqual_f32x4_message_wrong :
    almostEqual_f32x4 ⟨fun _ => 0x3f800000#32⟩ ⟨fun _ => 0x4f800000#32⟩ 0#64 = .ub .floatToInt := by
  rename_i D
  obtain ⟨w⟩ := D
  cases w <;> decide +kernel

end

/-! ## `std::vector<float>` -/

section
variable [Dialect]

omit [Dialect] in
theorem vecAt_get {v : List (BitVec 32)} {i : Nat} (h : i < v.length) : vecAt v ((i : ℕ) : ℤ) = .ok (.f32 v[i]) := by
  unfold vecAt
  rw [if_pos (by omega), Int.toNat_natCast, List.getElem?_eq_getElem h]

omit [Dialect] in
theorem vecAt_past {v : List (BitVec 32)} {i : Nat} (h : v.length ≤ i) : vecAt v ((i : ℕ) : ℤ) = .ub .outOfBounds := by
  unfold vecAt
  rw [if_pos (by omega), Int.toNat_natCast, List.getElem?_eq_none h]

/-- An entry exceeds the tolerance: the distance, rounded to `float`, is greater. -/
def Exceeds_vec (e a : List (BitVec 32)) (eps : BitVec 64) (i : Nat) : Prop :=
  ∃ x y, e[i]? = some x ∧ a[i]? = some y ∧ FarApart .b32 (decode .b64 eps.toNat) (decode .b32 x.toNat) (decode .b32 y.toNat)

/-- One iteration. -/
def vecOut (e a : List (BitVec 32)) (eps : BitVec 64) (i : Fin 4) : C (Option Report) :=
  if h : i.val < e.length ∧ i.val < a.length then laneOut ((i.val : ℕ) : ℤ) e[i.val] a[i.val] (dist32 e[i.val] a[i.val]) eps
  else .ub .outOfBounds

theorem almostEqual_vec_body (e a : List (BitVec 32)) (eps : BitVec 64) (i : Fin 4) :
    (do
      let diff ← Val.cast .f64 (stdFabs (← Val.sub (← vecAt e ((i.val : ℕ) : ℤ)) (← vecAt a ((i.val : ℕ) : ℤ))))
      if Val.gt diff (.f64 eps) then
        let a ← Val.cast .s32 (← vecAt a ((i.val : ℕ) : ℤ))
        let e ← Val.cast .s32 (← vecAt e ((i.val : ℕ) : ℤ))
        pure (some ⟨((i.val : ℕ) : ℤ), intVal a, intVal e, diff.toF64, eps⟩)
      else pure none : C (Option Report)) = vecOut e a eps i := by
  unfold vecOut
  split
  · rename_i h
    rw [vecAt_get h.1, vecAt_get h.2]
    generalize e[i.val] = x
    generalize a[i.val] = y
    have hsub : Val.sub (.f32 x) (.f32 y) = .ok (.f32 (BitVec.ofNat 32 (Fmt.b32.sub x.toNat y.toNat))) := rfl
    unfold laneOut
    simp only [Val.cast, bind, C.bind', hsub]
    show (if Fmt.b64.lt eps.toNat _ = true then _ else _) = _
    congr 1
    rcases truncTo_cases (Fmt.b32.trunc y.toNat) with ⟨n, e⟩ | e <;> rw [e]
    rcases truncTo_cases (Fmt.b32.trunc x.toNat) with ⟨m, e⟩ | e <;> rw [e]
    rfl
  · rename_i h
    by_cases h1 : i.val < e.length
    · rw [vecAt_get h1, vecAt_past (by omega : a.length ≤ i.val)]
      rfl
    · rw [vecAt_past (by omega : e.length ≤ i.val)]
      rfl

omit [Dialect] in
theorem vecOut_none {e a : List (BitVec 32)} {eps : BitVec 64} {i : Fin 4} :
    vecOut e a eps i = .ok none ↔ i.val < e.length ∧ i.val < a.length ∧ ¬ Exceeds_vec e a eps i.val := by
  unfold vecOut Exceeds_vec
  split
  · rename_i h
    rw [laneOut_none, less_iff ok32 (isDist32 _ _), List.getElem?_eq_getElem h.1, List.getElem?_eq_getElem h.2]
    constructor
    · refine fun hn => ⟨h.1, h.2, ?_⟩
      rintro ⟨x, y, hx, hy, hf⟩
      cases hx; cases hy
      exact hn hf
    · exact fun hn hf => hn.2.2 ⟨_, _, rfl, rfl, hf⟩
  · rename_i h
    exact iff_of_false (by simp) fun hn => h ⟨hn.1, hn.2.1⟩

/-- `almostEqual` on vectors returns `true` exactly when both have at least four entries and none of the
first four exceeds the tolerance. -/
theorem almostEqual_vec_passes (e a : List (BitVec 32)) (eps : BitVec 64) : almostEqual_vec e a eps = .ok none ↔
    4 ≤ e.length ∧ 4 ≤ a.length ∧ ∀ i, i < 4 → ¬ Exceeds_vec e a eps i := by
  unfold almostEqual_vec
  rw [forRet_none (almostEqual_vec_body e a eps)]
  simp only [vecOut_none]
  constructor
  · intro h
    have h3 := h 3
    exact ⟨h3.1, h3.2.1, fun i hi => (h ⟨i, hi⟩).2.2⟩
  · rintro ⟨h1, h2, h3⟩ i
    exact ⟨by omega, by omega, h3 i.val i.isLt⟩
example : @almostEqual_vec .strict [0x40400000#32, 0#32, 0#32, 0#32] [0x3f800000#32, 0#32, 0#32, 0#32] 0x4000000000000000#64 = .ok none := by
  decide +kernel

/-- With the default tolerance: the first four entries are equal in value, or not a number in one operand. -/
theorem almostEqual_vec_exact (e a : List (BitVec 32)) : almostEqual_vec e a 0#64 = .ok none ↔
    ∀ i, i < 4 → ∃ x y, e[i]? = some x ∧ a[i]? = some y ∧ NanOrEqual (decode .b32 x.toNat) (decode .b32 y.toNat) := by
  rw [almostEqual_vec_passes]
  unfold Exceeds_vec
  rw [show decode .b64 (0#64).toNat = .num false 0 from decode_zero ok64]
  simp only [farApart_zero32]
  constructor
  · rintro ⟨h1, h2, h3⟩ i hi
    have e1 := List.getElem?_eq_getElem (l := e) (i := i) (by omega)
    have e2 := List.getElem?_eq_getElem (l := a) (i := i) (by omega)
    exact ⟨_, _, e1, e2, not_not.1 fun hn => h3 i hi ⟨_, _, e1, e2, hn⟩⟩
  · intro h
    obtain ⟨x, y, hx, hy, -⟩ := h 3 (by omega)
    refine ⟨(List.getElem?_eq_some_iff.1 hx).1, (List.getElem?_eq_some_iff.1 hy).1, ?_⟩
    rintro i hi ⟨x, y, hx, hy, hn⟩
    obtain ⟨x', y', hx', hy', h'⟩ := h i hi
    rw [hx] at hx'
    rw [hy] at hy'
    cases hx'; cases hy'
    exact hn h'

/-- A failing comparison reports the first entry that exceeds the tolerance. -/
theorem almostEqual_vec_reports (e a : List (BitVec 32)) (eps : BitVec 64) (r : Report)
    (h : almostEqual_vec e a eps = .ok (some r)) :
    ∃ i x y, i < 4 ∧ e[i]? = some x ∧ a[i]? = some y ∧ (∀ j, j < i → ¬ Exceeds_vec e a eps j) ∧ Exceeds_vec e a eps i ∧
      r.index = (i : ℕ) ∧ IsInt (decode .b32 y.toNat) r.actual ∧ IsInt (decode .b32 x.toNat) r.expected ∧
      IsDist .b32 (decode .b32 x.toNat) (decode .b32 y.toNat) (decode .b64 r.diff.toNat) ∧ r.eps = eps := by
  unfold almostEqual_vec at h
  rw [forRet_other (almostEqual_vec_body e a eps) _ (by simp)] at h
  obtain ⟨i, h1, h2⟩ := h
  unfold vecOut at h2
  split at h2
  · rename_i hl
    obtain ⟨l, ha, he, hi, hd, hp⟩ := laneOut_some.1 h2
    have e1 := List.getElem?_eq_getElem hl.1
    have e2 := List.getElem?_eq_getElem hl.2
    refine ⟨i.val, _, _, i.isLt, e1, e2, fun j hj => ?_, ⟨_, _, e1, e2, (less_iff ok32 (isDist32 _ _)).1 l⟩, hi, ha, he,
      hd ▸ isDist32 _ _, hp⟩
    exact (vecOut_none.1 (h1 ⟨j, by omega⟩ hj)).2.2
  · cases h2
example : @almostEqual_vec .strict [0x40400000#32] [0x3f800000#32] 0#64 = .ok (some ⟨0, 1, 3, 0x4000000000000000#64, 0#64⟩) := by
  decide +kernel

/-- Undefined behaviour by reading past the end: exactly when a vector ends before the fourth entry and
no earlier entry exceeds the tolerance. -/
theorem almostEqual_vec_past_iff (e a : List (BitVec 32)) (eps : BitVec 64) :
    almostEqual_vec e a eps = .ub .outOfBounds ↔
    (e.length < 4 ∨ a.length < 4) ∧ ∀ i, i < 4 → ¬ Exceeds_vec e a eps i := by
  unfold almostEqual_vec
  rw [forRet_other (almostEqual_vec_body e a eps) _ (by simp)]
  constructor
  · rintro ⟨i, h1, h2⟩
    unfold vecOut at h2
    split at h2
    · rename_i h
      rcases laneOut_cases ((i.val : ℕ) : ℤ) e[i.val] a[i.val] (dist32 e[i.val] a[i.val]) eps with ⟨o, ho⟩ | ho <;>
        rw [ho] at h2 <;> cases h2
    · rename_i h
      refine ⟨by omega, fun j hj => ?_⟩
      by_cases hji : j < i.val
      · exact (vecOut_none.1 (h1 ⟨j, hj⟩ hji)).2.2
      · rintro ⟨x, y, hx, hy, -⟩
        have := (List.getElem?_eq_some_iff.1 hx).1
        have := (List.getElem?_eq_some_iff.1 hy).1
        omega
  · rintro ⟨h1, h2⟩
    refine ⟨⟨min e.length a.length, by omega⟩, fun j hj => ?_, ?_⟩
    · have : j.val < min e.length a.length := hj
      exact vecOut_none.2 ⟨by omega, by omega, h2 _ (by omega)⟩
    · unfold vecOut
      rw [dif_neg (by show ¬ (min e.length a.length < e.length ∧ min e.length a.length < a.length); omega)]
example : @almostEqual_vec .strict [0x40400000#32] [0x40400000#32] 0#64 = .ub .outOfBounds := by decide +kernel

/-- Entries after the fourth are not compared. -/
theorem almostEqual_vec_tail_wrong (x y z w : BitVec 32) (t u : List (BitVec 32)) (eps : BitVec 64) :
    almostEqual_vec (x :: y :: z :: w :: t) (x :: y :: z :: w :: u) eps = almostEqual_vec [x, y, z, w] [x, y, z, w] eps := by
  unfold almostEqual_vec
  rfl
example : @almostEqual_vec .strict [0#32, 0#32, 0#32, 0#32, 0x3f800000#32] [0#32, 0#32, 0#32, 0#32, 0x40000000#32] 0#64 = .ok none := by
  decide +kernel
end

end Verif.Props
'''
open(D + '/../lean/Verif/Props/TestUtil.lean', 'w').write(out)
