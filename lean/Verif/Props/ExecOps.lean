import Verif.SpecExec
import Verif.FpExact
import Verif.Props.InterpTypes

/-! Property C96: the operators and conversions of the interpreter are those of the abstract machine. -/

namespace Verif.Props
open Verif.Cpp Verif.SpecCpp Verif.SpecExec Verif.FpOps
open Verif.Spec (IsSum IsDiff IsProd IsQuot Rounded IsTrunc decode Datum)

/-- The outcome is one of the given outcomes, or the program is not well-formed. -/
def Sound {α : Type} (P : C α → Prop) : C α → Prop
  | .ok v => P (.ok v)
  | .ub u => u ≠ .illTyped → P (.ub u)
  | .abort m => m = "ill-formed program"
  | .indet _ => False

/-! ## Results of float operations -/

theorem fmt_ok (d : Bool) : Ok (fmt d) := by cases d; exacts [ok32, ok64]

theorem isResult_pack {f : Fmt} (ok : Ok f) (n : Nat) (s : Bool) {m : Nat} (h : m ≤ f.infBits) : IsResult f n (f.pack s m) := by
  refine ⟨pack_lt s (Nat.lt_of_le_of_lt h infBits_lt), fun hn => ?_⟩
  rcases Nat.lt_or_eq_of_le h with h | rfl
  · rw [decode_pack_num ok s h] at hn; cases hn
  · rw [decode_pack_inf ok s] at hn; cases hn

theorem isResult_nan {f : Fmt} (ok : Ok f) (o : FloatOps) (a b : Nat) : IsResult f (f.nanBits o a b) (f.nanBits o a b) :=
  ⟨nanBits_lt_width ok o a b, fun _ => rfl⟩

theorem isResult_round {f : Fmt} (ok : Ok f) (m : Nat) (zs : Bool) (n : Int) (d : Nat) : IsResult f m (f.round zs n d) :=
  isResult_pack ok m _ (roundMag_le _ _)

theorem isResult_addWith {f : Fmt} (ok : Ok f) {n a b : Nat} (hn : n < 2 ^ f.width) (ha : a < 2 ^ f.width) (hb : b < 2 ^ f.width) :
    IsResult f n (f.addWith n a b) := by
  have h0 : IsResult f n n := ⟨hn, fun _ => rfl⟩
  unfold Fmt.addWith
  rcases kind ok ha with ⟨na, ia, da⟩ | ⟨na, ia, da, ea⟩ | ⟨na, ia, da, la⟩ <;>
  rcases kind ok hb with ⟨nb, ib, db⟩ | ⟨nb, ib, db, eb⟩ | ⟨nb, ib, db, lb⟩ <;>
  simp only [na, nb, Bool.or_true, Bool.or_false, if_true,
    ia, ib, if_false, Bool.false_eq_true, Bool.true_and, Bool.false_and]
  all_goals first
    | exact h0
    | exact isResult_round ok _ _ _ _
    | exact ⟨ha, fun h => by rw [da] at h; cases h⟩
    | exact ⟨hb, fun h => by rw [db] at h; cases h⟩
    | (split; exacts [h0, ⟨ha, fun h => by rw [da] at h; cases h⟩])

theorem isResult_add {f : Fmt} (ok : Ok f) {a b : Nat} (ha : a < 2 ^ f.width) (hb : b < 2 ^ f.width) :
    IsResult f (f.nanBits .add a b) (f.add a b) := isResult_addWith ok (nanBits_lt_width ok _ _ _) ha hb

theorem isResult_sub {f : Fmt} (ok : Ok f) {a b : Nat} (ha : a < 2 ^ f.width) (hb : b < 2 ^ f.width) :
    IsResult f (f.nanBits .sub a b) (f.sub a b) := by
  unfold Fmt.sub
  split
  · exact isResult_nan ok _ _ _
  · exact isResult_addWith ok (nanBits_lt_width ok _ _ _) ha (negate_lt hb)

theorem isResult_mul {f : Fmt} (ok : Ok f) (a b : Nat) : IsResult f (f.nanBits .mul a b) (f.mul a b) := by
  unfold Fmt.mul
  dsimp only
  repeat' split
  all_goals first
    | exact isResult_nan ok _ _ _
    | exact isResult_round ok _ _ _ _
    | exact isResult_pack ok _ _ (Nat.le_refl _)

theorem isResult_div {f : Fmt} (ok : Ok f) (a b : Nat) : IsResult f (f.nanBits .div a b) (f.div a b) := by
  unfold Fmt.div
  dsimp only
  repeat' split
  all_goals first
    | exact isResult_nan ok _ _ _
    | exact isResult_pack ok _ _ (roundMag_le _ _)
    | exact isResult_pack ok _ _ (Nat.le_refl _)
    | exact isResult_pack ok _ _ (Nat.zero_le _)

theorem isPattern_ofInt {f : Fmt} (n : Int) : IsPattern f (f.ofInt n) := ofInt_lt n

theorem isResult_convert {f g : Fmt} (ok : Ok g) (b : Nat) : IsResult g (g.nanBits (.convert f) b 0) (f.convert g b) := by
  unfold Fmt.convert
  repeat' split
  all_goals first
    | exact isResult_nan ok _ _ _
    | exact isResult_round ok _ _ _ _
    | exact isResult_pack ok _ _ (Nat.le_refl _)

theorem ofNat32 {r : Nat} (h : IsPattern .b32 r) : (BitVec.ofNat 32 r).toNat = r := by
  rw [BitVec.toNat_ofNat]; exact Nat.mod_eq_of_lt h
theorem ofNat64 {r : Nat} (h : IsPattern .b64 r) : (BitVec.ofNat 64 r).toNat = r := by
  rw [BitVec.toNat_ofNat]; exact Nat.mod_eq_of_lt h

/-! ## Conversions -/

theorem toFloat32 (v : Val) : ToFloat v false v.toF32.toNat := by
  cases v with
  | int t z =>
    show ToFloat _ _ (BitVec.ofNat 32 _).toNat
    rw [ofNat32 (isPattern_ofInt z)]
    exact .int t false _ z (isPattern_ofInt z) (rounded_ofInt ok32 z)
  | f32 b => exact .same _ _ _ (.float b)
  | f64 b =>
    have h : IsResult .b32 (Fmt.b32.nanBits (.convert .b64) b.toNat 0) (Fmt.b64.convert .b32 b.toNat) := isResult_convert ok32 _
    show ToFloat _ _ (BitVec.ofNat 32 _).toNat
    rw [ofNat32 h.1]
    exact .other _ true _ _ (.double b) h (decode_convert ok64 ok32 b.isLt)

theorem toFloat64 (v : Val) : ToFloat v true v.toF64.toNat := by
  cases v with
  | int t z =>
    show ToFloat _ _ (BitVec.ofNat 64 _).toNat
    rw [ofNat64 (isPattern_ofInt z)]
    exact .int t true _ z (isPattern_ofInt z) (rounded_ofInt ok64 z)
  | f64 b => exact .same _ _ _ (.double b)
  | f32 b =>
    have h : IsResult .b64 (Fmt.b64.nanBits (.convert .b32) b.toNat 0) (Fmt.b32.convert .b64 b.toNat) := isResult_convert ok64 _
    show ToFloat _ _ (BitVec.ofNat 64 _).toNat
    rw [ofNat64 h.1]
    exact .other _ false _ _ (.float b) h (decode_convert ok32 ok64 b.isLt)

theorem truncTo_sound (t : ITy) {v : Val} {d : Bool} {b : Nat} (hf : Floating v d b) (hb : b < 2 ^ (fmt d).width) :
    Sound (Conv (.int t) v) (truncTo t ((fmt d).trunc b) >>= fun z => C.ok (.int t z)) := by
  have h := trunc_spec (fmt_ok d) hb
  split at h
  · rename_i s x hd
    obtain ⟨n, hn, hx⟩ := h
    rw [hn]
    by_cases hv : t.lo ≤ n ∧ n ≤ t.hi
    · have : truncTo t (some n) = .ok n := if_pos hv
      rw [this]
      exact Conv.trunc t v d b s x n hf hd hx ((isValue_iff t n).2 hv)
    · have : truncTo t (some n) = .ub .floatToInt := if_neg hv
      rw [this]
      exact fun _ => Conv.large t v d b s x n hf hd hx (fun h => hv ((isValue_iff t n).1 h))
  · rename_i hd
    rw [h]
    exact fun _ => Conv.special t v d b hf hd

/-- A cast is the conversion of [conv]. -/
theorem cast_sound (e : Elem) (v : Val) (hv : InRange v) : Sound (Conv e v) (Val.cast e v) := by
  cases e with
  | int t =>
    cases v with
    | int s z => exact Conv.int s t z _ ((conversion_rule s t z _ hv).2 rfl)
    | f32 b =>
      have h := truncTo_sound t (.float b) b.isLt
      change Sound _ (truncTo t (Fmt.b32.trunc b.toNat) >>= _) at h
      show Sound _ (truncTo t (Fmt.b32.trunc b.toNat) >>= _)
      generalize truncTo t (Fmt.b32.trunc b.toNat) = x at h ⊢
      exact h
    | f64 b =>
      have h := truncTo_sound t (.double b) b.isLt
      change Sound _ (truncTo t (Fmt.b64.trunc b.toNat) >>= _) at h
      show Sound _ (truncTo t (Fmt.b64.trunc b.toNat) >>= _)
      generalize truncTo t (Fmt.b64.trunc b.toNat) = x at h ⊢
      exact h
  | f32 =>
    have := Conv.float v _ (toFloat32 v)
    rwa [floatVal, if_neg Bool.false_ne_true, BitVec.ofNat_toNat, BitVec.setWidth_eq] at this
  | f64 =>
    have := Conv.double v _ (toFloat64 v)
    rwa [floatVal, if_pos rfl, BitVec.ofNat_toNat, BitVec.setWidth_eq] at this

/-- So is the conversion of an assignment. -/
theorem toBits_sound (e : Elem) (v : Val) :
    Sound (Conv e v) (Val.toBits e v >>= fun b => C.ok (.ofBits e b)) := by
  cases e with
  | int t =>
    cases v with
    | int s z =>
      obtain ⟨w, hw⟩ : ∃ w, Val.ofBits (.int t) (BitVec.ofInt t.bits z) = .int t w := ⟨_, rfl⟩
      show Conv _ _ (.ok (Val.ofBits (.int t) (BitVec.ofInt t.bits z)))
      rw [hw]
      exact Conv.int s t z w ((assign_value s t z w).2 ⟨_, rfl, hw⟩)
    | f32 b =>
      have h := truncTo_sound t (.float b) b.isLt
      have hr := yields_cast (.int t) (.f32 b) trivial
      show Sound _ ((truncTo t (Fmt.b32.trunc b.toNat) >>= fun v => C.ok (BitVec.ofInt t.bits v)) >>= _)
      have hr : ∀ z, truncTo t (Fmt.b32.trunc b.toNat) = .ok z → IsValue t z := by
        intro z hz
        refine (hr (.int t z) ?_).2
        show (truncTo t (Fmt.b32.trunc b.toNat) >>= _) = _
        rw [hz]; rfl
      change Sound _ (truncTo t (Fmt.b32.trunc b.toNat) >>= _) at h
      generalize truncTo t (Fmt.b32.trunc b.toNat) = x at h hr
      cases x with
      | ok z =>
        have : Val.ofBits (.int t) (BitVec.ofInt t.bits z) = .int t z := by
          obtain ⟨b', h1, h2⟩ := (assign_value t t z z).1 (converts_self t z (hr z rfl))
          cases h1; exact h2
        show Conv _ _ (.ok (Val.ofBits (.int t) (BitVec.ofInt t.bits z)))
        rw [this]; exact h
      | _ => exact h
    | f64 b =>
      have h := truncTo_sound t (.double b) b.isLt
      have hr := yields_cast (.int t) (.f64 b) trivial
      show Sound _ ((truncTo t (Fmt.b64.trunc b.toNat) >>= fun v => C.ok (BitVec.ofInt t.bits v)) >>= _)
      have hr : ∀ z, truncTo t (Fmt.b64.trunc b.toNat) = .ok z → IsValue t z := by
        intro z hz
        refine (hr (.int t z) ?_).2
        show (truncTo t (Fmt.b64.trunc b.toNat) >>= _) = _
        rw [hz]; rfl
      change Sound _ (truncTo t (Fmt.b64.trunc b.toNat) >>= _) at h
      generalize truncTo t (Fmt.b64.trunc b.toNat) = x at h hr
      cases x with
      | ok z =>
        have : Val.ofBits (.int t) (BitVec.ofInt t.bits z) = .int t z := by
          obtain ⟨b', h1, h2⟩ := (assign_value t t z z).1 (converts_self t z (hr z rfl))
          cases h1; exact h2
        show Conv _ _ (.ok (Val.ofBits (.int t) (BitVec.ofInt t.bits z)))
        rw [this]; exact h
      | _ => exact h
  | f32 =>
    have := Conv.float v _ (toFloat32 v)
    rwa [floatVal, if_neg Bool.false_ne_true, BitVec.ofNat_toNat, BitVec.setWidth_eq] at this
  | f64 =>
    have := Conv.double v _ (toFloat64 v)
    rwa [floatVal, if_pos rfl, BitVec.ofNat_toNat, BitVec.setWidth_eq] at this

/-! ## Conditions -/

theorem condition_bool {p : Prop} {b : Bool} (h : b = true ↔ p) : Condition p (ofBool b) := by
  cases b
  · exact .no fun hp => Bool.false_ne_true (h.2 hp)
  · exact .yes (h.1 rfl)

theorem decode_zeros (d : Bool) : decode (fmt d) 0 = .num false 0 := by
  have := decode_pack_zero (fmt_ok d) false
  rwa [Fmt.pack, if_neg Bool.false_ne_true] at this

/-- The contextual conversion to `bool`. -/
theorem toBool_sound (v : Val) : ToBool v v.truth := by
  cases v with
  | int t z => exact .int t z _ (truth_rule t z)
  | f32 b =>
    refine .float _ false _ _ (.float b) ?_
    have := eq_iff ok32 (a := b.toNat) (b := 0) b.isLt (by decide)
    show (!Fmt.b32.eq b.toNat 0) = true ↔ _
    rw [Bool.not_eq_true', ← Bool.not_eq_true, this]
    have h0 := decode_zeros false
    rw [show decode Fmt.b32 0 = _ from h0]
    rfl
  | f64 b =>
    refine .float _ true _ _ (.double b) ?_
    have := eq_iff ok64 (a := b.toNat) (b := 0) b.isLt (by decide)
    show (!Fmt.b64.eq b.toNat 0) = true ↔ _
    rw [Bool.not_eq_true', ← Bool.not_eq_true, this]
    have h0 := decode_zeros true
    rw [show decode Fmt.b64 0 = _ from h0]
    rfl

/-! ## Operators -/

theorem operands_uac {s t : ITy} {x y : Int} (hx : IsValue s x) (hy : IsValue t y) :
    Operands s t (s.uac t) x y (s.conv (s.uac t) x) (t.conv (s.uac t) y) :=
  ⟨(common_type_rule s t _).2 rfl, (conversion_rule s _ x _ hx).2 rfl, (conversion_rule t _ y _ hy).2 rfl⟩

theorem sound_of {α : Type} {P : C α → Prop} {x : C α} (h : P x) (h1 : ∀ m, x = .abort m → m = "ill-formed program")
    (h2 : ∀ l, x ≠ .indet l) : Sound P x := by
  cases x with
  | ok a => exact h
  | ub u => exact fun _ => h
  | abort m => exact h1 m rfl
  | indet l => exact absurd rfl (h2 l)

theorem mkInt_outcome [Dialect] (t : ITy) (z : Int) : (∃ v, mkInt t z = .ok v) ∨ ∃ u, mkInt t z = .ub u := by
  unfold mkInt
  repeat' split
  exacts [.inl ⟨_, rfl⟩, .inr ⟨_, rfl⟩, .inl ⟨_, rfl⟩]

section
variable [Dialect]

theorem arith_sound (o : BinOp) {s t : ITy} {x y z : Int} (hx : IsValue s x) (hy : IsValue t y)
    (ho : exact o (s.conv (s.uac t) x) (t.conv (s.uac t) y) = some z) :
    Sound (Binary Dialect.wrapv o (.int s x) (.int t y)) (mkInt (s.uac t) z) := by
  have h := Binary.arith o s t _ x y _ _ z _ (operands_uac hx hy) ho (arith_mkInt (s.uac t) z)
  rcases mkInt_outcome (s.uac t) z with ⟨v, hv⟩ | ⟨u, hu⟩
  · rw [hv] at h ⊢; exact h
  · rw [hu] at h ⊢; exact fun _ => h

theorem quot_sound (o : BinOp) {s t : ITy} {x y : Int} (hx : IsValue s x) (hy : IsValue t y) (m : Bool)
    (ho : o = if m then .mod else .div) :
    Sound (Binary Dialect.wrapv o (.int s x) (.int t y))
      (if t.conv (s.uac t) y = 0 then .ub .divByZero else
        mkQuot (s.uac t) ((s.conv (s.uac t) x).tdiv (t.conv (s.uac t) y))
          (if m then (s.conv (s.uac t) x).tmod (t.conv (s.uac t) y) else (s.conv (s.uac t) x).tdiv (t.conv (s.uac t) y))) := by
  have h := operands_uac hx hy
  generalize s.uac t = r at *
  generalize s.conv r x = x' at *
  generalize t.conv r y = y' at *
  have ho' : o = .div ∨ o = .mod := by cases m <;> simp_all
  by_cases h0 : y' = 0
  · rw [if_pos h0]
    exact fun _ => Binary.byZero o s t r x y x' y' ho' h h0
  · rw [if_neg h0]
    have hq := quotient_tdiv x' y' h0
    unfold mkQuot
    split
    · rename_i hv
      have hv := (isValue_iff r _).2 hv
      cases m
      · subst ho; exact Binary.div s t r x y x' y' _ _ h h0 hq hv
      · subst ho; exact Binary.mod s t r x y x' y' _ _ h h0 hq hv
    · rename_i hv
      exact fun _ => Binary.quotOut o s t r x y x' y' _ _ ho' h h0 hq fun h => hv ((isValue_iff r _).1 h)

theorem shr_sound {s t : ITy} {x y : Int} :
    Sound (Binary Dialect.wrapv .shr (.int s x) (.int t y)) (Val.shr (.int s x) (.int t y)) := by
  have hp := (promotion_rule s _).2 rfl
  have h := shr_rule s t _ x y hp
  by_cases hy : 0 ≤ y ∧ y < width s.promote
  · obtain ⟨n, rfl⟩ := Int.eq_ofNat_of_zero_le hy.1
    have hn : n < width s.promote := by have := hy.2; omega
    have e : Val.shr (.int s x) (.int t n) = .ok (.int s.promote (x / 2 ^ n)) := by
      have : ((n : Int) < s.promote.bits) := by rw [bits_width]; exact hy.2
      exact if_pos ⟨hy.1, this⟩
    have := (h.2 n rfl hn _).1 e
    rw [e]
    exact Binary.shr s t _ x _ n hp hn this.1 this.2
  · rw [h.1 hy]
    exact fun _ => Binary.shiftOut .shr s t _ x y (.inr rfl) hp hy

theorem shl_sound {s t : ITy} {x y : Int} :
    Sound (Binary Dialect.wrapv .shl (.int s x) (.int t y)) (Val.shl (.int s x) (.int t y)) := by
  have hp := (promotion_rule s _).2 rfl
  have h := shl_rule s t _ x y hp
  by_cases hy : 0 ≤ y ∧ y < width s.promote
  · obtain ⟨n, rfl⟩ := Int.eq_ofNat_of_zero_le hy.1
    have hn : n < width s.promote := by have := hy.2; omega
    have h := h.2 n rfl hn
    by_cases hc : isSigned s.promote = false ∨ Dialect.wrapv = true ∨
        (0 ≤ x ∧ IsValue (unsignedOf s.promote) (x * 2 ^ n))
    · have e := (h.2 hc _).1 (converts_wrap _ _)
      show Sound _ (Val.shl (.int s x) (.int t (n : Int)))
      rw [e]
      exact Binary.shl s t _ x _ n hp hn hc (converts_wrap _ _)
    · have h1 : isSigned s.promote = true := by
        cases hs : isSigned s.promote
        · exact absurd (.inl hs) hc
        · rfl
      have h2 : (Dialect.wrapv : Bool) = false := by
        cases hs : (Dialect.wrapv : Bool)
        · rfl
        · exact absurd (.inr (.inl hs)) hc
      have h3 : ¬ (0 ≤ x ∧ IsValue (unsignedOf s.promote) (x * 2 ^ n)) := fun h => hc (.inr (.inr h))
      show Sound _ (Val.shl (.int s x) (.int t (n : Int)))
      rw [h.1 h1 h2 h3]
      exact fun _ => Binary.shlOut s t _ x n hp hn h1 h2 h3
  · rw [h.1 hy]
    exact fun _ => Binary.shiftOut .shl s t _ x y (.inl rfl) hp hy

theorem bitop_sound (o : BinOp) (op : (w : Nat) → BitVec w → BitVec w → BitVec w) (f : Bool → Bool → Bool)
    (hop : ∀ w (a b : BitVec w) i, i < w → (op w a b).getLsbD i = f (a.getLsbD i) (b.getLsbD i)) (ho : bitOp o = some f)
    (x y : Val) : Sound (Binary Dialect.wrapv o x y) (Val.bitop op x y) := by
  cases x <;> cases y
  case int.int s x t y =>
    have hu := (common_type_rule s t _).2 rfl
    obtain ⟨z, hz⟩ : ∃ z, Val.bitop op (.int s x) (.int t y) = .ok (.int (s.uac t) z) := ⟨_, rfl⟩
    have h := (bitop_rule op f hop s t _ x y z hu).2 hz
    rw [hz]
    exact Binary.bits o f s t _ x y z ho hu h.1 h.2
  all_goals exact fun h => absurd rfl h

omit [Dialect] in
theorem floatOperands_double {x y : Val} (h : (∃ p, x = .f64 p) ∨ (∃ p, y = .f64 p)) :
    FloatOperands x y true x.toF64.toNat y.toF64.toNat := .double x y _ _ h (toFloat64 x) (toFloat64 y)
omit [Dialect] in
theorem floatOperands_float {x y : Val} (h1 : ∀ p, x ≠ .f64 p) (h2 : ∀ p, y ≠ .f64 p)
    (h : (∃ p, x = .f32 p) ∨ (∃ p, y = .f32 p)) :
    FloatOperands x y false x.toF32.toNat y.toF32.toNat := .float x y _ _ h1 h2 h (toFloat32 x) (toFloat32 y)

theorem floatOp_sound (o : BinOp) (fop : Fmt → Nat → Nat → Nat)
    (h : ∀ f, Ok f → ∀ a b, a < 2 ^ f.width → b < 2 ^ f.width → FloatOp f o a b (fop f a b) ∧ IsResult f (nanOf f o a b) (fop f a b))
    (iop : ITy → Int → Int → C Val) (x y : Val)
    (hi : ∀ s a t b, x = .int s a → y = .int t b →
      Sound (Binary Dialect.wrapv o x y) (iop (s.uac t) (s.conv (s.uac t) a) (t.conv (s.uac t) b))) :
    Sound (Binary Dialect.wrapv o x y) (Val.arith iop fop x y) := by
  have hd : (∃ p, x = .f64 p) ∨ (∃ p, y = .f64 p) → Binary Dialect.wrapv o x y
      (.ok (.f64 (.ofNat 64 (fop .b64 x.toF64.toNat y.toF64.toNat)))) := fun hxy =>
    have := h .b64 ok64 x.toF64.toNat y.toF64.toNat x.toF64.isLt y.toF64.isLt
    Binary.float o x y true _ _ _ (floatOperands_double hxy) this.1 this.2
  have hs : (∀ p, x ≠ .f64 p) → (∀ p, y ≠ .f64 p) → (∃ p, x = .f32 p) ∨ (∃ p, y = .f32 p) → Binary Dialect.wrapv o x y
      (.ok (.f32 (.ofNat 32 (fop .b32 x.toF32.toNat y.toF32.toNat)))) := fun h1 h2 hxy =>
    have := h .b32 ok32 x.toF32.toNat y.toF32.toNat x.toF32.isLt y.toF32.isLt
    Binary.float o x y false _ _ _ (floatOperands_float h1 h2 hxy) this.1 this.2
  cases x <;> cases y
  case int.int s a t b => exact hi s a t b rfl rfl
  case int.f32 | f32.int | f32.f32 => exact hs (fun _ => Val.noConfusion) (fun _ => Val.noConfusion) (by simp)
  all_goals exact hd (by simp)

theorem cmp_sound (o : BinOp) (iop : Int → Int → Bool) (fop : Fmt → Nat → Nat → Bool)
    (hi : ∀ a b, ∃ p, Compares o a b = some p ∧ (iop a b = true ↔ p))
    (hf : ∀ f, Ok f → ∀ a b, a < 2 ^ f.width → b < 2 ^ f.width →
      ∃ p, FloatCompares o (decode f a) (decode f b) = some p ∧ (fop f a b = true ↔ p))
    (x y : Val) (hx : InRange x) (hy : InRange y) : Binary Dialect.wrapv o x y (.ok (ofBool (Val.cmp iop fop x y))) := by
  have hd : (∃ p, x = .f64 p) ∨ (∃ p, y = .f64 p) → Binary Dialect.wrapv o x y
      (.ok (ofBool (fop .b64 x.toF64.toNat y.toF64.toNat))) := fun hxy =>
    have ⟨p, h1, h2⟩ := hf .b64 ok64 x.toF64.toNat y.toF64.toNat x.toF64.isLt y.toF64.isLt
    Binary.floatCompare o p x y true _ _ _ (floatOperands_double hxy) h1 (condition_bool h2)
  have hs : (∀ p, x ≠ .f64 p) → (∀ p, y ≠ .f64 p) → (∃ p, x = .f32 p) ∨ (∃ p, y = .f32 p) → Binary Dialect.wrapv o x y
      (.ok (ofBool (fop .b32 x.toF32.toNat y.toF32.toNat))) := fun k1 k2 hxy =>
    have ⟨p, h1, h2⟩ := hf .b32 ok32 x.toF32.toNat y.toF32.toNat x.toF32.isLt y.toF32.isLt
    Binary.floatCompare o p x y false _ _ _ (floatOperands_float k1 k2 hxy) h1 (condition_bool h2)
  cases x <;> cases y
  case int.int s a t b =>
    have ⟨p, h1, h2⟩ := hi (s.conv (s.uac t) a) (t.conv (s.uac t) b)
    exact Binary.compare o p s t _ a b _ _ _ (operands_uac hx hy) h1 (condition_bool h2)
  case int.f32 | f32.int | f32.f32 => exact hs (fun _ => Val.noConfusion) (fun _ => Val.noConfusion) (by simp)
  all_goals exact hd (by simp)

omit [Dialect] in
theorem equal_symm (a b : Datum) : a.Equal b ↔ b.Equal a := by
  cases a <;> cases b <;> simp [Datum.Equal, eq_comm]

theorem lt_sound (x y : Val) (hx : InRange x) (hy : InRange y) :
    Binary Dialect.wrapv .lt x y (.ok (ofBool (Val.lt x y))) :=
  cmp_sound .lt _ _ (fun _ _ => ⟨_, rfl, decide_eq_true_iff⟩) (fun _ ok _ _ ha hb => ⟨_, rfl, lt_iff ok ha hb⟩) x y hx hy

/-- Every binary operator is the one of the standard. -/
theorem binary_sound (o : BinOp) (x y : Val) (hx : InRange x) (hy : InRange y) :
    Sound (Binary Dialect.wrapv o x y) (binary o x y) := by
  cases o with
  | add =>
    refine floatOp_sound .add Fmt.add (fun f ok a b ha hb => ⟨isSum_add ok ha hb, isResult_add ok ha hb⟩) (fun t x y => mkInt t (x + y)) x y ?_
    rintro s a t b rfl rfl
    exact arith_sound .add hx hy rfl
  | sub =>
    refine floatOp_sound .sub Fmt.sub (fun f ok a b ha hb => ⟨isDiff_sub ok ha hb, isResult_sub ok ha hb⟩) (fun t x y => mkInt t (x - y)) x y ?_
    rintro s a t b rfl rfl
    exact arith_sound .sub hx hy rfl
  | mul =>
    refine floatOp_sound .mul Fmt.mul (fun f ok a b ha hb => ⟨isProd_mul ok ha hb, isResult_mul ok a b⟩) (fun t x y => mkInt t (x * y)) x y ?_
    rintro s a t b rfl rfl
    exact arith_sound .mul hx hy rfl
  | div =>
    refine floatOp_sound .div Fmt.div (fun f ok a b ha hb => ⟨isQuot_div ok ha hb, isResult_div ok a b⟩) (fun t x y => if y = 0 then .ub .divByZero else mkQuot t (Int.tdiv x y) (Int.tdiv x y)) x y ?_
    rintro s a t b rfl rfl
    exact quot_sound .div hx hy false rfl
  | mod =>
    cases x <;> cases y
    case int.int s a t b => exact quot_sound .mod hx hy true rfl
    all_goals exact rfl
  | shl =>
    cases x <;> cases y
    case int.int s a t b => exact shl_sound
    all_goals exact fun h => absurd rfl h
  | shr =>
    cases x <;> cases y
    case int.int s a t b => exact shr_sound
    all_goals exact fun h => absurd rfl h
  | and => exact bitop_sound .and _ _ (fun _ _ _ _ _ => BitVec.getLsbD_and) rfl x y
  | or => exact bitop_sound .or _ _ (fun _ _ _ _ _ => BitVec.getLsbD_or) rfl x y
  | xor => exact bitop_sound .xor _ _ (fun _ _ _ _ _ => BitVec.getLsbD_xor) rfl x y
  | lt => exact lt_sound x y hx hy
  | gt =>
    exact cmp_sound .gt _ _ (fun _ _ => ⟨_, rfl, decide_eq_true_iff⟩) (fun _ ok _ _ ha hb => ⟨_, rfl, lt_iff ok hb ha⟩) x y hx hy
  | le =>
    refine cmp_sound .le _ _ (fun _ _ => ⟨_, rfl, decide_eq_true_iff⟩) (fun _ ok _ _ ha hb => ⟨_, rfl, ?_⟩) x y hx hy
    rw [Bool.or_eq_true, lt_iff ok ha hb, eq_iff ok ha hb]
  | ge =>
    refine cmp_sound .ge _ _ (fun _ _ => ⟨_, rfl, decide_eq_true_iff⟩) (fun _ ok _ _ ha hb => ⟨_, rfl, ?_⟩) x y hx hy
    rw [Bool.or_eq_true, lt_iff ok hb ha, eq_iff ok ha hb, equal_symm]
  | eq =>
    exact cmp_sound .eq _ _ (fun _ _ => ⟨_, rfl, decide_eq_true_iff⟩) (fun _ ok _ _ ha hb => ⟨_, rfl, eq_iff ok ha hb⟩) x y hx hy
  | land => exact rfl
  | lor => exact rfl

omit [Dialect] in
theorem compl_sound (x : Val) : Sound (fun r => ∃ v, r = .ok v ∧ Complement x v) (Val.not x) := by
  cases x with
  | int s a =>
    have hp := (promotion_rule s _).2 rfl
    obtain ⟨z, hz⟩ : ∃ z, Val.not (.int s a) = .ok (.int s.promote z) := ⟨_, rfl⟩
    have h := (not_rule s _ a z hp).2 hz
    rw [hz]
    exact ⟨_, rfl, .mk s _ a z hp h.1 h.2⟩
  | f32 b => exact fun h => absurd rfl h
  | f64 b => exact fun h => absurd rfl h

end

theorem minMax_sound (e : Elem) (max : Bool) (x y : Val) (hx : InRange x) (hy : InRange y) :
    Sound (MinMax e max x y) ((if max then Val.stdMax else Val.stdMin) e x y) := by
  have h : (if max then Val.stdMax else Val.stdMin) e x y = Val.cast e x >>= fun x => Val.cast e y >>= fun y =>
      if Val.lt (if max then x else y) (if max then y else x) then .ok y else .ok x := by
    cases max <;> rfl
  rw [h]
  have cx := cast_sound e x hx
  have cy := cast_sound e y hy
  have rx := yields_cast e x hx
  have ry := yields_cast e y hy
  cases ex : Val.cast e x with
  | ok x' =>
    rw [ex] at cx rx
    cases ey : Val.cast e y with
    | ok y' =>
      rw [ey] at cy ry
      have hx' := (rx x' rfl).2
      have hy' := (ry y' rfl).2
      have hl := @lt_sound ⟨false⟩ (if max then x' else y') (if max then y' else x')
        (by cases max; exacts [hy', hx']) (by cases max; exacts [hx', hy'])
      show Sound _ (if Val.lt (if max then x' else y') (if max then y' else x') then .ok y' else .ok x')
      cases hlt : Val.lt (if max then x' else y') (if max then y' else x')
      · rw [hlt] at hl; exact .takesX x y x' y' cx cy hl
      · rw [hlt] at hl; exact .takesY x y x' y' cx cy hl
    | ub u => rw [ey] at cy; exact fun h => .second x y u (cy h)
    | abort m => rw [ey] at cy; exact cy
    | indet l => rw [ey] at cy; exact cy
  | ub u => rw [ex] at cx; exact fun h => .first x y u (cx h)
  | abort m => rw [ex] at cx; exact cx
  | indet l => rw [ex] at cx; exact cx

end Verif.Props
