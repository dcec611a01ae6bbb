import Verif.Props.Recip
import Verif.Props.SrcRecip

/-! Source text of `float_parts`, `RecipEstimate`, `FPRecipEstimate` and `vrecpeq_f32`: a class with
constructor and conversion function, and functions that call each other.

The model of `float_parts` leaves out the members that are never read; here the constructor is
executed in full, with the calls of `int32_to_binary` and the loops that write the strings. -/

open Verif.Cpp

namespace Verif

/-- `neon_sim.cpp:4261-4342` -/
cpp_unit Source.recip "struct float_parts
{
    explicit float_parts(float v);
    explicit operator float() const;

    uint32_t sign;
    uint32_t fraction;
    uint32_t exp;

    int exp_bits[8];
    int fraction_bits[23];
    std::string exp_bits_str = std::string(8, '0');
    std::string fraction_bits_str = std::string(23, '0');

private:
    void int32_to_binary(int data, int* bits, int n = 32)
    {
        for (int i = 0; i < n; i++)
        {
            bits[n - 1 - i] = data & 1;
            data = data >> 1;
        }
    }
};

uint32_t RecipEstimate(uint32_t a)
{
    a = a * 2 + 1;
    uint32_t b = (1 << 19) / a;
    return (b + 1) / 2;
}

float FPRecipEstimate(float operand)
{
    float_parts parts{operand};
    parts.exp = 253 - parts.exp;
    uint32_t scaled = 0x100 | ((parts.fraction >> 15) & 0xFF);
    uint32_t estimate = RecipEstimate(scaled);
    parts.fraction = (estimate & 0xff) << 15;
    return float(parts);
}

float_parts::float_parts(float v)
{
    uint32_t v_bits;
    memcpy(&v_bits, &v, sizeof(float));

    sign = (v_bits >> 31) & 0x1;
    fraction = v_bits & ((1 << 23) - 1);
    exp = (v_bits >> 23) & 0xff;

    int32_to_binary(exp, exp_bits, 8);
    int32_to_binary(fraction, fraction_bits, 23);

    for (int i = 0; i < 8; i++)
    {
        exp_bits_str[i] = exp_bits[i] + '0';
    }
    for (int i = 0; i < 23; i++)
    {
        fraction_bits_str[i] = fraction_bits[i] + '0';
    }
}

float_parts::operator float() const
{
    uint32_t v_bits = ((sign & 0x1) << 31) | (fraction & ((1 << 23) - 1)) | ((exp & 0xff) << 23);

    float result;
    memcpy(&result, &v_bits, sizeof(float));
    return result;
}

float32x4_t vrecpeq_f32(float32x4_t N)
{
    float32x4_t D;
    for (int i = 0; i < 4; i++)
    {
        D.val[i] = FPRecipEstimate(N.val[i]);
    }
    return D;
}
"

variable [Dialect]

omit [Dialect] in
/-- A loop whose body keeps an invariant. -/
theorem cfor_exists {σ} (P : Int → σ → Prop) {lo hi : Int} {s : σ} {body : Int → σ → C σ} (hlh : lo ≤ hi) (h0 : P lo s)
    (h : ∀ i s, lo ≤ i → i < hi → P i s → ∃ s', body i s = .ok s' ∧ P (i + 1) s') :
    ∃ s', cfor lo hi 1 s body = .ok s' ∧ P hi s' := by
  obtain ⟨n, hn⟩ : ∃ n : Nat, hi - lo = n := ⟨(hi - lo).toNat, by omega⟩
  induction n generalizing lo s with
  | zero =>
    have : lo = hi := by omega
    subst this
    exact ⟨s, by rw [cfor_unfold _ _ _ _ _ (by decide), if_neg (by omega)], h0⟩
  | succ n ih =>
    obtain ⟨s', e, hp⟩ := h lo s (by omega) (by omega) h0
    obtain ⟨s'', e', hp'⟩ := ih (by omega) hp (fun i s h1 h2 => h i s (by omega) h2) (by omega)
    exact ⟨s'', by rw [cfor_unfold _ _ _ _ _ (by decide), if_pos (by omega), e, ok_bind, e'], hp'⟩


omit [Dialect] in
theorem and_one (w : Int) : ∃ x : Int, Val.and (.int .i32 w) (.int .i32 1) = .ok (.int .i32 x) ∧ (BitVec.ofInt 32 x).toNat ≤ 1 := by
  refine ⟨_, rfl, ?_⟩
  show (BitVec.ofInt 32 (BitVec.toInt (BitVec.ofInt 32 w &&& BitVec.ofInt 32 1))).toNat ≤ 1
  rw [BitVec.ofInt_toInt, BitVec.toNat_and]
  exact Nat.and_le_right

/-- Every element is a bit. -/
def Bits {n : Nat} (r : Arr .s32 n) : Prop := ∀ i, ∃ b, r i = some b ∧ b.toNat ≤ 1

attribute [local cpp] List.all_cons List.all_nil Ty.isPtr Bool.not_false
set_option maxRecDepth 10000
/-- `int32_to_binary(a, b, m)` writes a bit to each of the `m` elements of `b`. -/
theorem binary_call (fuel d : Nat) (hf : 1000 ≤ fuel) (ρ : Env) (a b : Nat) (v : Int) (n : Nat) (hn : n ≤ 900) (m : Int) (hm : m = n) (r : Arr .s32 n)
    (ha : ρ.get a = .ok (.sc .u32 (some (.int .u32 v)))) (hb : ρ.get b = .ok (.cells .s32 n r)) :
    ∃ r' : Arr .s32 n, Bits r' ∧
      (Source.recip_ast.calls fuel (d + 1)).call k!"int32_to_binary" [.var a, .var b, .num .i32 m] ρ =
        .ok (none, ρ.set b (.cells .s32 n r')) := by
  subst hm
  rw [TransUnit.calls]
  generalize Source.recip_ast.calls fuel d = Γ
  simp only [Source.recip_ast, lookup]
  cpp_simp
  simp only [pass, eval, ha, hb, cpp, ↓reduceIte]
  have e1 : Val.cast (.int .i32) (Val.int .u32 v) = .ok (.int .i32 (ITy.conv .u32 .i32 v)) := rfl
  have e2 : Val.cast (.int .i32) (Val.int .i32 n) = .ok (.int .i32 n) := by
    simp [Val.cast, ITy.conv]
  rw [e1, e2]
  simp only [ok_bind]
  generalize ITy.conv .u32 .i32 v = w
  rw [loop_bind (σ := Int × Ptr .s32) (lo := 0) (hi := n) (step := 1) (s₀ := (w, toPtr r))
    (k₂ := fun s => .ok (none, ρ.set b (.cells .s32 n (ofPtr s.2 n))))
    (body' := fun i s => do
      let p ← s.2.set (n - 1 - i) (← Val.and (.int .i32 s.1) (.int .i32 1))
      pure (s.1 / 2, p))
    (fun s => [(110, .sc .s32 (some (.int .i32 n))), (1651078259, .ptr .s32 s.2), (1684108385, .sc .s32 (some (.int .i32 s.1)))])
    rfl (.inl rfl) (by omega) (by omega) (by omega) (by omega) hf rfl (fun _ => rfl) (fun _ _ => by cpp_simp) ?_ ?_]
  · obtain ⟨s, e, hs⟩ := cfor_exists (σ := Int × Ptr .s32) (lo := 0) (hi := n) (s := (w, toPtr r))
      (body := fun i s => do
        let p ← s.2.set (n - 1 - i) (← Val.and (.int .i32 s.1) (.int .i32 1))
        pure (s.1 / 2, p))
      (fun i s => s.2.off = 0 ∧ s.2.buf.length = n ∧ ∀ j : Nat, n - i ≤ j → j < n → ∃ b, s.2.buf[j]? = some (some b) ∧ b.toNat ≤ 1)
      (by omega) ⟨rfl, List.length_ofFn, by omega⟩
      (by
        rintro i ⟨w, p⟩ h1 h2 ⟨h3, h4, h5⟩
        obtain ⟨x, ex, hx⟩ := and_one w
        simp only at h3 h4 h5
        refine ⟨(w / 2, ⟨p.buf.set (p.off + (n - 1 - i)).toNat (some (BitVec.ofInt 32 x)), p.off⟩), by
          simp only [ex, ok_bind, Ptr.set, Val.toBits]
          rw [if_pos (by omega)]; rfl, h3, by simpa using h4, ?_⟩
        intro j h6 h7
        by_cases hj : j = n - 1 - i
        · exact ⟨_, by rw [show (p.off + ((n:Int) - 1 - i)).toNat = j by omega, List.getElem?_set_self (by omega)], hx⟩
        · rw [List.getElem?_set_ne (by omega)]
          exact h5 j (by omega) h7)
    rw [e]
    refine ⟨ofPtr s.2 n, ?_, rfl⟩
    intro i
    obtain ⟨b, h1, h2⟩ := hs.2.2 i (by omega) i.2
    exact ⟨b, by simp [ofPtr, h1], h2⟩
  · intro i s h1 h2
    obtain ⟨w, p⟩ := s
    obtain ⟨x, ex, hx⟩ := and_one w
    cpp_simp
    simp only [ex, ok_bind]
    refine bind_congr' fun q => ?_
    have : Val.shr (.int .i32 w) (.int .i32 1) = .ok (.int .i32 (w / 2)) := rfl
    have e2 : Val.cast (.int .i32) (.int .i32 (w / 2)) = .ok (.int .i32 (w / 2)) := by
      simp [Val.cast, ITy.conv]
    simp [this, ok_bind, e2, cpp]
  · rintro ⟨w, p⟩
    simp only [andThen_next, ok_bind, copyBack, hb, cpp]
    rfl

theorem add_digit (x : Int) (h : 0 ≤ x ∧ x ≤ 1) : Val.add (.int .i32 x) (.int .i8 48) = .ok (.int .i32 (x + 48)) := by
  simp only [Val.add, Val.arith]
  rw [show ITy.uac .i32 .i8 = .i32 by rfl, show ITy.conv .i32 .i32 x = x by simp [ITy.conv],
    show ITy.conv .i8 .i32 48 = 48 by rfl, mkInt_i32 (by omega)]

omit [Dialect] in
theorem toInt_bit (b : BitVec 32) (hb : b.toNat ≤ 1) : b.toInt = b.toNat := by
  rw [BitVec.toInt_eq_toNat_of_lt (by omega)]

theorem digit_loop {n : Nat} {r : Arr .s32 n} (h : Bits r) (s : Arr .s8 n) (m : Int) (hm : m = n) :
    ∃ s', cfor 0 m 1 s (fun i s => do
      let x ← r.get i
      let y ← Val.add x (.int .i8 48)
      s.set i y) = .ok s' := by
  obtain ⟨s', e, -⟩ := cfor_exists (lo := 0) (hi := m) (s := s) (body := fun i (s : Arr .s8 n) => do
      let x ← r.get i
      let y ← Val.add x (.int .i8 48)
      s.set i y) (fun _ _ => True) (by omega) trivial (by
    intro i s h1 h2 _
    have h3 : 0 ≤ i ∧ i < n := by omega
    obtain ⟨b, eb, hb⟩ := h ⟨i.toNat, by omega⟩
    have e : r.get i = .ok (.int .i32 (BitVec.toInt (n := 32) b)) := by
      rw [Arr.get, dif_pos h3, eb]
      rfl
    rw [toInt_bit b hb] at e
    generalize hk : BitVec.toNat (w := 32) b = k at e
    have hk' : k ≤ 1 := hk ▸ hb
    have e2 := add_digit k (by omega)
    refine ⟨s.put ⟨i.toNat, by omega⟩ (BitVec.ofInt _ (k + 48)), ?_, trivial⟩
    simp -implicitDefEqProofs only [e, e2, ok_bind, Arr.set, Val.toBits]
    rw [dif_pos h3])
  exact ⟨s', e⟩

/-- The members of the object `x`, and the object. -/
def partsEnv (x : Nat) (s f e : Nat) (r₁ : Arr .s32 8) (r₂ : Arr .s32 23) (s₁ : Arr .s8 8) (s₂ : Arr .s8 23) : Env :=
  [(x, .obj k!"float_parts"), (member x k!"sign", .sc .u32 (some (.int .u32 s))), (member x k!"fraction", .sc .u32 (some (.int .u32 f))),
    (member x k!"exp", .sc .u32 (some (.int .u32 e))), (member x k!"exp_bits", .cells .s32 8 r₁),
    (member x k!"fraction_bits", .cells .s32 23 r₂), (member x k!"exp_bits_str", .cells .s8 8 s₁),
    (member x k!"fraction_bits_str", .cells .s8 23 s₂)]


theorem exec_step {Γ fuel fn t a b ρ ρ'} (ha : ∀ fmt, a ≠ .fprintf fmt) (h : exec Γ fuel fn t a ρ = .ok (.next ρ')) :
    exec Γ fuel fn t (.seq a b) ρ = exec Γ fuel fn t b ρ' := by
  have : exec Γ fuel fn t (.seq a b) ρ = (exec Γ fuel fn t a ρ >>= fun r => r.andThen fun ρ => exec Γ fuel fn t b ρ) := by
    cases a <;> first | rfl | exact absurd rfl (ha _)
  rw [this, h]; rfl

omit [Dialect] in
theorem copy_bits (b : BitVec 32) (v : Option Val) : copySc (.sc .u32 v) (.sc .f32 (some (.f32 b))) 4 = .ok (.sc .u32 (some (.int .u32 b.toNat))) := by
  simp only [copySc]
  rw [if_pos (by decide)]
  show C.ok (Obj.sc .u32 (some (.int .u32 (BitVec.ofNat 32 b.toNat).toNat))) = _
  rw [BitVec.ofNat_toNat, BitVec.setWidth_eq]

omit [Dialect] in
theorem copy_float (v : Val) (w : Option Val) : copySc (.sc .f32 w) (.sc .u32 (some v)) 4 =
    (Val.toBits .u32 v >>= fun b => .ok (.sc .f32 (some (.f32 b)))) := by
  simp only [copySc]
  rw [if_pos (by decide)]
  refine bind_congr' fun b => ?_
  show C.ok (Obj.sc .f32 (some (.f32 (BitVec.ofNat 32 b.toNat)))) = _
  rw [BitVec.ofNat_toNat, BitVec.setWidth_eq]

/-- Variables in the body of the constructor: parameter and members. -/
noncomputable def ctorEnv (b : BitVec 32) (s f e : Option Nat) (r₁ : Arr .s32 8) (r₂ : Arr .s32 23) (s₁ : Arr .s8 8) (s₂ : Arr .s8 23) : Env :=
  [(k!"v", .sc .f32 (some (.f32 b))), (k!"sign", .sc .u32 (s.map Props.U)), (k!"fraction", .sc .u32 (f.map Props.U)),
    (k!"exp", .sc .u32 (e.map Props.U)), (k!"exp_bits", .cells .s32 8 r₁),
    (k!"fraction_bits", .cells .s32 23 r₂), (k!"exp_bits_str", .cells .s8 8 s₁), (k!"fraction_bits_str", .cells .s8 23 s₂)]

/-- The constructor, `neon_sim.cpp:4303-4323`. -/
noncomputable def ctor : Func := Source.recip_ast.ctors.headD ⟨.void, 0, [], .skip⟩

theorem ctor_body (fuel d : Nat) (hf : 1000 ≤ fuel) (fn : List Nat) (b : BitVec 32) (r₁ r₂ s₁ s₂) :
    ∃ r₁' r₂' s₁' s₂',
      exec (Source.recip_ast.calls fuel (d + 1)) fuel fn .void ctor.body (ctorEnv b none none none r₁ r₂ s₁ s₂) =
      .ok (.next ((k!"v_bits", .sc .u32 (some (Props.U b.toNat))) ::
        ctorEnv b (some (b.toNat / 2 ^ 31)) (some (b.toNat % 2 ^ 23)) (some (b.toNat / 2 ^ 23 % 2 ^ 8)) r₁' r₂' s₁' s₂')) := by
  obtain ⟨r₁', h₁, c₁⟩ := binary_call fuel d hf ((k!"v_bits", .sc .u32 (some (Props.U b.toNat))) ::
        ctorEnv b (some (b.toNat / 2 ^ 31)) (some (b.toNat % 2 ^ 23)) (some (b.toNat / 2 ^ 23 % 2 ^ 8)) r₁ r₂ s₁ s₂)
    k!"exp" k!"exp_bits" _ 8 (by decide) 8 rfl r₁ rfl rfl
  obtain ⟨r₂', h₂, c₂⟩ := binary_call fuel d hf ((k!"v_bits", .sc .u32 (some (Props.U b.toNat))) ::
        ctorEnv b (some (b.toNat / 2 ^ 31)) (some (b.toNat % 2 ^ 23)) (some (b.toNat / 2 ^ 23 % 2 ^ 8)) r₁' r₂ s₁ s₂)
    k!"fraction" k!"fraction_bits" _ 23 (by decide) 23 rfl r₂ rfl rfl
  obtain ⟨s₁', l₁⟩ := digit_loop h₁ s₁ 8 rfl
  obtain ⟨s₂', l₂⟩ := digit_loop h₂ s₂ 23 rfl
  refine ⟨r₁', r₂', s₁', s₂', ?_⟩
  generalize Source.recip_ast.calls fuel (d + 1) = Γ at *
  have hb : b.toNat < 2 ^ 32 := b.isLt
  have e1 : Val.shr (.int .u32 b.toNat) (.int .i32 31) = .ok (Props.U (b.toNat / 2 ^ 31)) := Props.shr_U _ 31 (by decide)
  have e2 : Val.and (Props.U (b.toNat / 2 ^ 31)) (vint 0x1) = .ok (Props.U (b.toNat / 2 ^ 31 % 2 ^ 1)) :=
    Props.and_mask _ 1 _ (by decide) (by decide) (by omega)
  have e3 : Val.and (Props.U b.toNat) (vint 8388607) = .ok (Props.U (b.toNat % 2 ^ 23)) :=
    Props.and_mask _ 23 _ (by decide) (by decide) hb
  have e4 : Val.shr (Props.U b.toNat) (vint 23) = .ok (Props.U (b.toNat / 2 ^ 23)) := Props.shr_U _ 23 (by decide)
  have e5 : Val.and (Props.U (b.toNat / 2 ^ 23)) (vint 0xff) = .ok (Props.U (b.toNat / 2 ^ 23 % 2 ^ 8)) :=
    Props.and_mask _ 8 _ (by decide) (by decide) (by omega)
  have e6 : b.toNat / 2 ^ 31 % 2 ^ 1 = b.toNat / 2 ^ 31 := by omega
  rw [e6] at e2
  simp only [ctor, Source.recip_ast, List.headD]
  -- uint32_t v_bits; memcpy(&v_bits, &v, sizeof(float));
  rw [exec_step (by simp) (ρ' := (k!"v_bits", .sc .u32 none) :: ctorEnv b none none none r₁ r₂ s₁ s₂) rfl]
  rw [exec_step (by simp) (ρ' := (k!"v_bits", .sc .u32 (some (Props.U b.toNat))) :: ctorEnv b none none none r₁ r₂ s₁ s₂) (by
      simp only [ctorEnv]
      simp -implicitDefEqProofs only [cpp, ↓reduceIte, Nat.reduceBEq, Bool.false_eq_true, copy_bits])]
  -- sign, fraction, exp
  rw [exec_step (by simp) (ρ' := (k!"v_bits", .sc .u32 (some (Props.U b.toNat))) :: ctorEnv b (some (b.toNat / 2 ^ 31)) none none r₁ r₂ s₁ s₂)
    (by
      simp only [ctorEnv]
      simp -implicitDefEqProofs only [cpp, ↓reduceIte, Nat.reduceBEq, Bool.false_eq_true, Props.U, e1, e2, Props.cast_U, Option.map])]
  rw [exec_step (by simp) (ρ' := (k!"v_bits", .sc .u32 (some (Props.U b.toNat))) :: ctorEnv b (some (b.toNat / 2 ^ 31)) (some (b.toNat % 2 ^ 23)) none r₁ r₂ s₁ s₂)
    (by
      simp only [ctorEnv]
      simp -implicitDefEqProofs only [cpp, ↓reduceIte, Nat.reduceBEq, Bool.false_eq_true, Props.U, Props.shl_one_23, Props.sub_23, e3, Props.cast_U, Option.map])]
  rw [exec_step (by simp) (ρ' := (k!"v_bits", .sc .u32 (some (Props.U b.toNat))) :: ctorEnv b (some (b.toNat / 2 ^ 31)) (some (b.toNat % 2 ^ 23)) (some (b.toNat / 2 ^ 23 % 2 ^ 8)) r₁ r₂ s₁ s₂)
    (by
      simp only [ctorEnv]
      simp -implicitDefEqProofs only [cpp, ↓reduceIte, Nat.reduceBEq, Bool.false_eq_true, Props.U, e4, e5, Props.cast_U, Option.map])]
  -- int32_to_binary
  rw [exec_step (by simp) ((exec_call ..).trans (congrArg (· >>= _) c₁))]
  rw [show Env.set 7311717550011282547 (Obj.cells Elem.s32 8 r₁')
          ((130152045048947, Obj.sc Elem.u32 (some (Props.U b.toNat))) ::
            ctorEnv b (some (b.toNat / 2 ^ 31)) (some (b.toNat % 2 ^ 23)) (some (b.toNat / 2 ^ 23 % 2 ^ 8)) r₁ r₂ s₁
              s₂) = (130152045048947, Obj.sc Elem.u32 (some (Props.U b.toNat))) ::
            ctorEnv b (some (b.toNat / 2 ^ 31)) (some (b.toNat % 2 ^ 23)) (some (b.toNat / 2 ^ 23 % 2 ^ 8)) r₁' r₂ s₁
              s₂ from rfl]
  rw [exec_step (by simp) ((exec_call ..).trans (congrArg (· >>= _) c₂))]
  rw [show Env.set 8116671603040799920503587959923 (Obj.cells Elem.s32 23 r₂')
          ((130152045048947, Obj.sc Elem.u32 (some (Props.U b.toNat))) ::
            ctorEnv b (some (b.toNat / 2 ^ 31)) (some (b.toNat % 2 ^ 23)) (some (b.toNat / 2 ^ 23 % 2 ^ 8)) r₁' r₂ s₁
              s₂) = (130152045048947, Obj.sc Elem.u32 (some (Props.U b.toNat))) ::
            ctorEnv b (some (b.toNat / 2 ^ 31)) (some (b.toNat % 2 ^ 23)) (some (b.toNat / 2 ^ 23 % 2 ^ 8)) r₁' r₂' s₁
              s₂ from rfl]
  generalize b.toNat / 2 ^ 31 = vs, b.toNat % 2 ^ 23 = vf, b.toNat / 2 ^ 23 % 2 ^ 8 = ve
  -- the strings
  rw [exec_seq_loop]
  rw [loop_bind (lo := 0) (hi := 8) (step := 1) (s₀ := s₁) (k₂ := fun s => exec Γ fuel fn .void _
        ((130152045048947, Obj.sc Elem.u32 (some (Props.U b.toNat))) :: ctorEnv b (some vs) (some vf) (some ve) r₁' r₂' s s₂))
    (body' := fun i s => do
      let x ← r₁'.get i
      let y ← Val.add x (.int .i8 48)
      s.set i y)
    (fun s => (130152045048947, Obj.sc Elem.u32 (some (Props.U b.toNat))) :: ctorEnv b (some vs) (some vf) (some ve) r₁' r₂' s s₂)
    rfl (.inl rfl) (by omega) (by omega) (by omega) (by omega) hf rfl (fun _ => rfl) (fun _ _ => rfl) ?_ (fun _ => rfl)]
  · rw [l₁, ok_bind]
    rw [exec_seq_loop]
    refine Eq.trans (loop_bind (lo := 0) (hi := 23) (step := 1) (s₀ := s₂) (k₂ := fun s => exec Γ fuel fn .void .skip
          ((130152045048947, Obj.sc Elem.u32 (some (Props.U b.toNat))) :: ctorEnv b (some vs) (some vf) (some ve) r₁' r₂' s₁' s))
      (body' := fun i s => do
        let x ← r₂'.get i
        let y ← Val.add x (.int .i8 48)
        s.set i y)
      (fun s => (130152045048947, Obj.sc Elem.u32 (some (Props.U b.toNat))) :: ctorEnv b (some vs) (some vf) (some ve) r₁' r₂' s₁' s)
      rfl (.inl rfl) (by omega) (by omega) (by omega) (by omega) hf rfl (fun _ => rfl) (fun _ _ => rfl) ?_ (fun _ => rfl)) ?_
    · intro i s h1 h2
      simp only [ctorEnv]
      cpp_simp
    · rw [l₂, ok_bind]
      rfl
  · intro i s h1 h2
    simp only [ctorEnv]
    cpp_simp


/-- The conversion function, `neon_sim.cpp:4325-4332`. -/
noncomputable def conv : Func := Source.recip_ast.convs.headD ⟨.void, 0, [], .skip⟩

theorem convert_eval (fuel d : Nat) (ρ : Env) (x : Nat) (s f e : Nat) (hs : s < 2) (he : e < 2 ^ 32) (hf : f < 2 ^ 23) (r₁ r₂ s₁ s₂)
    (h0 : ρ.get x = .ok (.obj k!"float_parts"))
    (h1 : ρ.get (member x k!"sign") = .ok (.sc .u32 (some (Props.U s))))
    (h2 : ρ.get (member x k!"fraction") = .ok (.sc .u32 (some (Props.U f))))
    (h3 : ρ.get (member x k!"exp") = .ok (.sc .u32 (some (Props.U e))))
    (h4 : ρ.get (member x k!"exp_bits") = .ok (.cells .s32 8 r₁))
    (h5 : ρ.get (member x k!"fraction_bits") = .ok (.cells .s32 23 r₂))
    (h6 : ρ.get (member x k!"exp_bits_str") = .ok (.cells .s8 8 s₁))
    (h7 : ρ.get (member x k!"fraction_bits_str") = .ok (.cells .s8 23 s₂)) :
    (Source.recip_ast.calls fuel (d + 1)).convert .f32 x ρ =
      .ok (.f32 (BitVec.ofNat 32 (s * 2 ^ 31 + e % 256 * 2 ^ 23 + f))) := by
  have key := Props.toFloat_eval s e f hs he hf
  rw [TransUnit.calls]
  have e1 : lookup k!"float_parts" Source.recip_ast.convs = .ok conv := rfl
  obtain ⟨st, e2, e3⟩ : ∃ st, lookupStruct k!"float_parts" Source.recip_ast.structs = .ok st ∧
    getMembers ρ x st.members = .ok (ctorEnv 0 (some s) (some f) (some e) r₁ r₂ s₁ s₂).tail := by
    refine ⟨_, rfl, ?_⟩
    simp only [getMembers, h1, h2, h3, h4, h5, h6, h7, ok_bind]
    rfl
  have e5 : conv.ret = .sc .f32 := rfl
  simp only [e1, e2, e3, ok_bind, h0, e5, ↓reduceIte]
  generalize Source.recip_ast.calls fuel d = Γ at *
  simp only [conv, Source.recip_ast, List.headD, ctorEnv, List.tail]
  cpp_simp
  simp only [Option.map, ok_bind]
  refine Eq.trans (b := Model.float_parts.toFloat ⟨Props.U s, Props.U f, Props.U e⟩ >>= fun b => .ok (.f32 b)) ?_ (by rw [key]; rfl)
  simp only [Model.float_parts.toFloat, bind_assoc]
  iterate 9 refine bind_congr' fun _ => ?_
  simp only [copy_float, bind_assoc, ok_bind]
  rfl

theorem construct_eval (fuel d : Nat) (hf : 1000 ≤ fuel) (ρ : Env) (x : Nat) (arg : Expr) (b : BitVec 32)
    (ha : eval ρ arg = .ok (.f32 b)) :
    ∃ r₁ r₂ s₁ s₂,
      (Source.recip_ast.calls fuel (d + 2)).construct k!"float_parts" x [arg] ρ =
        .ok (partsEnv x (b.toNat / 2 ^ 31) (b.toNat % 2 ^ 23) (b.toNat / 2 ^ 23 % 2 ^ 8) r₁ r₂ s₁ s₂ ++ ρ) := by
  obtain ⟨r₁, r₂, s₁, s₂, e⟩ := ctor_body fuel d hf (chars 64 k!"float_parts").reverse b Arr.undef Arr.undef
    (fun _ => some 48#8) (fun _ => some 48#8)
  refine ⟨r₁, r₂, s₁, s₂, ?_⟩
  rw [TransUnit.calls]
  have h1 : lookup k!"float_parts" Source.recip_ast.ctors = .ok ctor := rfl
  obtain ⟨st, h2, h3⟩ : ∃ st, lookupStruct k!"float_parts" Source.recip_ast.structs = .ok st ∧
    freshMembers st.members = .ok (ctorEnv b none none none Arr.undef Arr.undef
    (fun _ => some 48#8) (fun _ => some 48#8)).tail := ⟨_, rfl, rfl⟩
  have h4 : ctor.params = [(.sc .f32, k!"v")] := rfl
  have h5 : ctor.ret = .void := rfl
  simp only [h1, h2, h3, ok_bind, h4, pass, ha, h5]
  generalize Source.recip_ast.calls fuel (d + 1) = Γ at *
  rw [show Val.cast .f32 (.f32 b) = .ok (.f32 b) from rfl, ok_bind, ok_bind]
  rw [show ((k!"v", .sc .f32 (some (.f32 b))) :: List.tail (ctorEnv b none none none Arr.undef Arr.undef (fun _ => some 48#8) fun _ => some 48#8)) =
     (ctorEnv b none none none Arr.undef Arr.undef (fun _ => some 48#8) fun _ => some 48#8) from rfl, e]
  rfl

theorem RecipEstimate_call (fuel d : Nat) (ρ : Env) (arg : Expr) (a : Nat) (h : a < 1024)
    (ha : eval ρ arg = .ok (Props.U a)) :
    (Source.recip_ast.calls fuel (d + 1)).call k!"RecipEstimate" [arg] ρ = .ok (some (Props.U (Props.est a)), ρ) := by
  have key := Props.RecipEstimate_eval a h
  have hest : Props.est a < 2 ^ 32 := by
    unfold Props.est
    have : 524288 / (a * 2 + 1) ≤ 524288 := Nat.div_le_self _ _
    omega
  rw [TransUnit.calls]
  generalize Source.recip_ast.calls fuel d = Γ
  simp only [Source.recip_ast, lookup]
  cpp_simp
  simp only [pass, ha, cpp, Props.cast_U]
  cpp_simp
  refine Eq.trans (b := Model.RecipEstimate (Props.U a) >>= fun v => Val.toBits .u32 v >>= fun b => .ok (some (.ofBits .u32 b), ρ)) ?_ ?_
  · simp only [Model.RecipEstimate, bind_assoc]
    iterate 8 refine bind_congr' fun _ => ?_
    rw [← bind_assoc, cast_toBits_u32]
  · rw [key, ok_bind]
    show C.ok (some (Val.int .u32 (BitVec.toNat (BitVec.ofInt 32 (Props.est a)))), ρ) = _
    rw [Props.ofInt_nat32, BitVec.toNat_ofNat, Nat.mod_eq_of_lt hest]

/-- Variables of `FPRecipEstimate`. -/
def litEnv (b : BitVec 32) (s f e : Nat) (r₁ : Arr .s32 8) (r₂ : Arr .s32 23) (s₁ : Arr .s8 8) (s₂ : Arr .s8 23) : Env :=
  [(k!"parts", .obj k!"float_parts"), (k!"parts.sign", .sc .u32 (some (.int .u32 s))), (k!"parts.fraction", .sc .u32 (some (.int .u32 f))),
    (k!"parts.exp", .sc .u32 (some (.int .u32 e))), (k!"parts.exp_bits", .cells .s32 8 r₁),
    (k!"parts.fraction_bits", .cells .s32 23 r₂), (k!"parts.exp_bits_str", .cells .s8 8 s₁),
    (k!"parts.fraction_bits_str", .cells .s8 23 s₂), (k!"operand", .sc .f32 (some (.f32 b)))]

omit [Dialect] in
theorem litEnv_eq (b s f e r₁ r₂ s₁ s₂) : partsEnv k!"parts" s f e r₁ r₂ s₁ s₂ ++ [(k!"operand", .sc .f32 (some (.f32 b)))] =
    litEnv b s f e r₁ r₂ s₁ s₂ := rfl

theorem FPRecipEstimate_body (fuel d : Nat) (hfu : 1000 ≤ fuel) (fn : List Nat) (b : BitVec 32) (g : Func)
    (hg : lookup k!"FPRecipEstimate" Source.recip_ast.funcs = .ok g) :
    g.params = [(.sc .f32, k!"operand")] ∧
    exec (Source.recip_ast.calls fuel (d + 2)) fuel fn g.ret g.body [(k!"operand", .sc .f32 (some (.f32 b)))] =
      .ok (.ret (.sc .f32 (some (.f32 (BitVec.ofNat 32 (Props.recipBits b.toNat)))))) := by
  have hb : b.toNat < 2 ^ 32 := b.isLt
  obtain ⟨r₁, r₂, s₁, s₂, ec⟩ := construct_eval fuel d hfu [(k!"operand", .sc .f32 (some (.f32 b)))] k!"parts" (.var k!"operand") b rfl
  generalize hn : b.toNat = n at *
  have e1 : Val.sub (vint 253) (Props.U (n / 2 ^ 23 % 2 ^ 8)) = .ok (Props.U ((253 + (2 ^ 32 - n / 2 ^ 23 % 2 ^ 8)) % 2 ^ 32)) :=
    Props.sub_U 253 _ (by decide) (by omega)
  have e2 : Val.shr (Props.U (n % 2 ^ 23)) (vint 15) = .ok (Props.U (n % 2 ^ 23 / 2 ^ 15)) := Props.shr_U _ 15 (by decide)
  have e3 : Val.and (Props.U (n % 2 ^ 23 / 2 ^ 15)) (vint 0xFF) = .ok (Props.U (n % 2 ^ 23 / 2 ^ 15 % 2 ^ 8)) :=
    Props.and_mask _ 8 _ (by decide) (by decide) (by omega)
  rw [show n % 2 ^ 23 / 2 ^ 15 % 2 ^ 8 = n / 2 ^ 15 % 256 by omega] at e3
  have e4 := Props.or_256 (n / 2 ^ 15 % 256) (by omega)
  have er := fun ρ => RecipEstimate_call fuel (d + 1) ρ (.var k!"scaled") (256 + n / 2 ^ 15 % 256) (by omega)
  have hest : Props.est (256 + n / 2 ^ 15 % 256) < 2 ^ 20 := by
    unfold Props.est
    have : 524288 / ((256 + n / 2 ^ 15 % 256) * 2 + 1) ≤ 524288 := Nat.div_le_self _ _
    generalize 524288 / ((256 + n / 2 ^ 15 % 256) * 2 + 1) = q at *
    omega
  unfold Props.recipBits
  generalize Props.est (256 + n / 2 ^ 15 % 256) = q at *
  have e6 : Val.and (Props.U q) (vint 0xff) = .ok (Props.U (q % 2 ^ 8)) := Props.and_mask _ 8 _ (by decide) (by decide) (by omega)
  have e7 : Val.shl (Props.U (q % 2 ^ 8)) (vint 15) = .ok (Props.U (q % 2 ^ 8 * 2 ^ 15)) := Props.shl_U _ 15 (by decide) (by omega)
  have ev := fun ρ => convert_eval fuel (d + 1) ρ k!"parts" (n / 2 ^ 31) (q % 2 ^ 8 * 2 ^ 15) ((253 + (2 ^ 32 - n / 2 ^ 23 % 2 ^ 8)) % 2 ^ 32)
    (by omega) (by omega) (by omega) r₁ r₂ s₁ s₂
  have e9 : (253 + (2 ^ 32 - n / 2 ^ 23 % 2 ^ 8)) % 2 ^ 32 % 256 = (509 - n / 2 ^ 23 % 256) % 256 := by omega
  rw [e9] at ev
  generalize Source.recip_ast.calls fuel (d + 2) = Γ at *
  generalize (253 + (2 ^ 32 - n / 2 ^ 23 % 2 ^ 8)) % 2 ^ 32 = ve' at *
  generalize n / 2 ^ 23 % 2 ^ 8 = ve, n % 2 ^ 23 = vf, n / 2 ^ 31 = vs at *
  cases hg
  refine ⟨rfl, ?_⟩
  rw [exec_step (by simp) ((exec_construct ..).trans (congrArg (· >>= _) ec))]
  rw [litEnv_eq]
  rw [exec_step (by simp) (ρ' := litEnv b vs vf ve' r₁ r₂ s₁ s₂) (by
      simp only [litEnv]
      simp -implicitDefEqProofs only [cpp, ↓reduceIte, Nat.reduceBEq, Bool.false_eq_true, Props.U, Props.cast_U, e1])]
  rw [exec_step (by simp) (ρ' := (k!"scaled", .sc .u32 (some (Props.U (256 + n / 2 ^ 15 % 256)))) :: litEnv b vs vf ve' r₁ r₂ s₁ s₂) (by
      simp only [litEnv]
      simp -implicitDefEqProofs only [cpp, ↓reduceIte, Nat.reduceBEq, Bool.false_eq_true, Props.U, Props.cast_U, e2, e3, e4])]
  rw [exec_step (by simp) (ρ' := (k!"estimate", .sc .u32 (some (Props.U q))) ::
      (k!"scaled", .sc .u32 (some (Props.U (256 + n / 2 ^ 15 % 256)))) :: litEnv b vs vf ve' r₁ r₂ s₁ s₂) (by
      simp only [litEnv]
      rw [exec_declCall, er _ rfl]
      rfl)]
  rw [exec_step (by simp) (ρ' := (k!"estimate", .sc .u32 (some (Props.U q))) ::
      (k!"scaled", .sc .u32 (some (Props.U (256 + n / 2 ^ 15 % 256)))) :: litEnv b vs (q % 2 ^ 8 * 2 ^ 15) ve' r₁ r₂ s₁ s₂) (by
      simp only [litEnv]
      simp -implicitDefEqProofs only [cpp, ↓reduceIte, Nat.reduceBEq, Bool.false_eq_true, Props.U, Props.cast_U, e6, e7])]
  rw [exec_seq_retConv, exec_retConv, ev _ rfl (by rfl) (by rfl) (by rfl) (by rfl) (by rfl) (by rfl) (by rfl)]
  rfl

theorem FPRecipEstimate_call (fuel d : Nat) (hfu : 1000 ≤ fuel) (ρ : Env) (arg : Expr) (b : BitVec 32)
    (ha : eval ρ arg = .ok (.f32 b)) :
    (Source.recip_ast.calls fuel (d + 3)).call k!"FPRecipEstimate" [arg] ρ =
      .ok (some (.f32 (BitVec.ofNat 32 (Props.recipBits b.toNat))), ρ) := by
  rw [TransUnit.calls]
  obtain ⟨g, hg⟩ : ∃ g, lookup k!"FPRecipEstimate" Source.recip_ast.funcs = .ok g := ⟨_, rfl⟩
  obtain ⟨hp, e⟩ := FPRecipEstimate_body fuel d hfu (chars 64 k!"FPRecipEstimate").reverse b g hg
  simp only [hg, ok_bind, hp, pass, ha]
  rw [show Val.cast .f32 (.f32 b) = .ok (.f32 b) from rfl, ok_bind, ok_bind, e]
  rfl

end Verif

namespace Verif.Props
variable [Dialect]

theorem FPRecipEstimate_source (b : float32_t) :
    RunsIn Source.recip k!"FPRecipEstimate" [.ofScalar .f32 b] (Obj.ofScalar .f32 <$> Model.FPRecipEstimate b) := by
  refine ⟨_, Source.recip_parse, 1000, fun fuel hf => ?_⟩
  obtain ⟨g, hg⟩ : ∃ g, lookup k!"FPRecipEstimate" Source.recip_ast.funcs = .ok g := ⟨_, rfl⟩
  obtain ⟨hp, e⟩ := FPRecipEstimate_body fuel (fuel - 2) hf (chars 64 k!"FPRecipEstimate").reverse b g hg
  rw [show fuel - 2 + 2 = fuel by omega] at e
  rw [TransUnit.run, hg, ok_bind, hp, FPRecipEstimate_eval]
  rw [show bindArgs [(Ty.sc .f32, k!"operand")] [Obj.ofScalar .f32 b] [] = .ok [(k!"operand", .sc .f32 (some (.f32 b)))] from rfl]
  rw [ok_bind, e]
  rfl

theorem vrecpeq_f32_source (N : float32x4_t) :
    RunsIn Source.recip k!"vrecpeq_f32" [.ofVec N] (Obj.ofVec <$> Model.vrecpeq_f32 N) := by
  refine ⟨_, Source.recip_parse, 1000, fun fuel hf => ?_⟩
  have key := fun ρ arg b h => FPRecipEstimate_call fuel (fuel - 3) hf ρ arg b h
  rw [show fuel - 3 + 3 = fuel by omega] at key
  rw [TransUnit.run]
  generalize Source.recip_ast.calls fuel fuel = Γ at *
  simp only [Source.recip_ast, lookup, Model.vrecpeq_f32]
  cpp_simp
  cpp_loop fun D => [(k!"D", .vec .f32 4 D), (k!"N", .ofVec N)]
  · intro i D h1 h2
    cpp_simp
    rw [key _ _ (N.lane ⟨i.toNat, by omega⟩) (by
      simp -implicitDefEqProofs only [cpp, ↓reduceIte, Nat.reduceBEq, Bool.false_eq_true]
      rw [Vec.get, dif_pos ⟨h1, h2⟩]; rfl)]
    rw [Vec.get, dif_pos ⟨h1, h2⟩]
    have e : Val.toF32 (.ofBits .f32 (N.lane ⟨i.toNat, by omega⟩)) = N.lane ⟨i.toNat, by omega⟩ := rfl
    simp only [ok_bind, e, FPRecipEstimate_eval]
    cpp_simp
  · intro D
    cpp_simp

/-- The outcome of a function of a translation unit is unique. -/
theorem runsIn_unique {text : String} {f : Nat} {args : List Obj} {r s : C Obj}
    (hr : RunsIn text f args r) (hs : RunsIn text f args s) : r = s := by
  obtain ⟨u, hu, n, hn⟩ := hr
  obtain ⟨v, hv, m, hm⟩ := hs
  cases hu.symm.trans hv
  exact (hn (n + m) (by omega)).symm.trans (hm (n + m) (by omega))

/-- The source text estimates `1 / 2` as `511 / 1024`. -/
example : RunsIn Source.recip k!"vrecpeq_f32" [.ofVec (⟨fun _ => 0x40000000#32⟩ : float32x4_t)]
    (.ok (.ofVec (⟨fun _ => 0x3eff8000#32⟩ : float32x4_t))) := by
  have h := vrecpeq_f32_source ⟨fun _ => 0x40000000#32⟩
  have e : (⟨fun _ => BitVec.ofNat 32 (recipBits (0x40000000#32 : BitVec 32).toNat)⟩ : float32x4_t) =
    ⟨fun _ => 0x3eff8000#32⟩ := by
    rw [show recipBits (0x40000000#32 : BitVec 32).toNat = 0x3eff8000 by decide +kernel]
  rw [vrecpeq_f32_eval, e] at h
  exact h

end Verif.Props

namespace Verif

/-- A text that is not in `neon_sim.cpp`: the function called writes past the end of the array. -/
cpp_unit Source.overrun "struct parts
{
    explicit parts(float v);
    explicit operator float() const;

    uint32_t exp;
    int exp_bits[8];

private:
    void fill(int data, int* bits, int n = 32)
    {
        for (int i = 0; i < n; i++)
        {
            bits[n - 1 - i] = data & 1;
            data = data >> 1;
        }
    }
};

float f(float v)
{
    parts p{v};
    return float(p);
}

parts::parts(float v)
{
    exp = 1;
    fill(exp, exp_bits, 9);
}

parts::operator float() const
{
    float v;
    return v;
}
"

section
local instance : Dialect := .strict
set_option maxRecDepth 10000

example : Source.overrun_ast.run 12 k!"f" [.ofScalar .f32 0#32] = .ub .outOfBounds := by
  rfl
example : Source.recip_ast.run 40 k!"RecipEstimate" [.ofScalar .u32 256#32] = .ok (.ofScalar .u32 511#32) := by
  rfl
example : Source.recip_ast.run 40 k!"FPRecipEstimate" [.ofScalar .f32 0x40000000#32] =
    .ok (.ofScalar .f32 0x3eff8000#32) := by
  rfl
end

end Verif
