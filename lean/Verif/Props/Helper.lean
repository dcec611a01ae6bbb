/-
C82: what the stream operators of the project's tests write, and that the text of integer registers determines them.
Generated by `tools/gen_helper.py`.
-/
import Verif.Model.Helper
import Verif.Lemmas
import Verif.Tables

namespace Verif.Props
open Verif.Model

/-! ## Specification -/

/-- Words separated by a comma and a blank. -/
def commas (ws : List (List Char)) : List Char := List.intercalate [',', ' '] ws

/-- Lines separated by a line break; there is none after the last one. -/
def lines (ls : List (List Char)) : List Char := List.intercalate ['\n'] ls

/-- The usual decimal text of an integer. -/
def text (v : Int) : List Char := (toString v).toList

example : commas [text 1, text (-20), text 300] = "1, -20, 300".toList := by decide +kernel
example : lines ["1, 2".toList, "3".toList] = "1, 2\n3".toList := by decide +kernel

theorem decimal_eq_text (v : Int) : decimal v = text v := by
  unfold decimal text
  cases v with
  | ofNat m =>
    rw [if_neg (by simp)]
    show Nat.toDigits 10 m = (Nat.repr m).toList
    simp [Nat.repr]
  | negSucc m =>
    rw [if_pos (by omega)]
    show '-' :: Nat.toDigits 10 (m + 1) = ("-" ++ Nat.repr (m + 1)).toList
    simp [Nat.repr]

/-! ## The loop -/

theorem intercalate_snoc (sep : List Char) (a b : List Char) (l : List (List Char)) :
    List.intercalate sep ((a :: l) ++ [b]) = List.intercalate sep (a :: l) ++ sep ++ b := by
  induction l generalizing a with
  | nil => simp [List.intercalate, List.intersperse]
  | cons c l ih =>
    have := ih c
    simp only [List.intercalate, List.intersperse, List.cons_append, List.flatten_cons] at this ⊢
    rw [this]; simp

theorem commas_snoc (l : List (List Char)) (b : List Char) :
    commas (l ++ [b]) = (if 0 < l.length then commas l ++ [',', ' '] else commas l) ++ b := by
  cases l with
  | nil => simp [commas]
  | cons a l =>
    rw [if_pos (by simp)]
    exact intercalate_snoc _ a b l

theorem cfor_join {n : Nat} {hi : Int} {os : Stream} {body : Int → Stream → C Stream} (hh : hi = n) (f : Fin n → List Char)
    (h : ∀ (i : Fin n) (os : Stream), body (i.val : Int) os =
      .ok ((if (i.val : Int) > 0 then os ++ [',', ' '] else os) ++ f i)) :
    cfor 0 hi 1 os body = .ok (os ++ commas (List.ofFn f)) := by
  subst hh
  have key : cfor 0 (n : Int) 1 os body = .ok (os ++ commas ((List.ofFn f).take n)) := by
    refine cfor_inv n (fun k => os ++ commas ((List.ofFn f).take k)) (by simp) (by simp [commas]) ?_
    intro k hk
    rw [show (0 : Int) + k * 1 = ((⟨k, hk⟩ : Fin n).val : Int) by simp, h ⟨k, hk⟩]
    have ht : (List.ofFn f).take (k + 1) = (List.ofFn f).take k ++ [f ⟨k, hk⟩] := by
      rw [List.take_succ_eq_append_getElem (by simpa using hk)]; simp
    rw [ht, commas_snoc]
    have hl : ((List.ofFn f).take k).length = k := by simp; omega
    rw [hl]
    by_cases hk0 : 0 < k
    · rw [if_pos (by simpa using hk0), if_pos hk0]; simp
    · rw [if_neg (by simpa using hk0), if_neg hk0]; simp
  rw [key, List.take_of_length_le (by simp)]

/-! ## Reading the text back -/

theorem append_sep {c : Char} {a b x y : List Char} (ha : c ∉ a) (hb : c ∉ b) (h : a ++ c :: x = b ++ c :: y) : a = b ∧ x = y := by
  induction a generalizing b with
  | nil =>
    cases b with
    | nil => simpa using h
    | cons d b => simp at h hb; exact absurd h.1 hb.1
  | cons d a ih =>
    cases b with
    | nil => simp at h ha; exact absurd h.1.symm ha.1
    | cons e b =>
      simp only [List.cons_append, List.cons.injEq] at h
      obtain ⟨rfl, h⟩ := h
      have := ih (b := b) (fun m => ha (List.mem_cons_of_mem _ m)) (fun m => hb (List.mem_cons_of_mem _ m)) h
      exact ⟨by rw [this.1], this.2⟩

/-- Words without the first character of the separator can be read back. -/
theorem intercalate_injective (c : Char) (cs : List Char) (l m : List (List Char)) (hlen : l.length = m.length)
    (hl : ∀ w ∈ l, c ∉ w) (hm : ∀ w ∈ m, c ∉ w) (h : List.intercalate (c :: cs) l = List.intercalate (c :: cs) m) : l = m := by
  induction l generalizing m with
  | nil => cases m with
    | nil => rfl
    | cons _ _ => simp at hlen
  | cons a l ih =>
    cases m with
    | nil => simp at hlen
    | cons b m =>
      cases l with
      | nil =>
        cases m with
        | nil => simpa [List.intercalate, List.intersperse] using h
        | cons _ _ => simp at hlen
      | cons a' l =>
        cases m with
        | nil => simp at hlen
        | cons b' m =>
          have h' : a ++ c :: (cs ++ List.intercalate (c :: cs) (a' :: l)) = b ++ c :: (cs ++ List.intercalate (c :: cs) (b' :: m)) := by
            simpa [List.intercalate, List.intersperse] using h
          obtain ⟨hab, ht⟩ := append_sep (hl a (by simp)) (hm b (by simp)) h'
          have := ih (b' :: m) (by simpa using hlen) (fun w hw => hl w (List.mem_cons_of_mem _ hw))
            (fun w hw => hm w (List.mem_cons_of_mem _ hw)) (List.append_cancel_left ht)
          rw [hab, this]

theorem mem_decimal {c : Char} {v : Int} (h : c ∈ decimal v) : c = '-' ∨ c.isDigit := by
  unfold decimal at h
  split at h
  · rcases List.mem_cons.1 h with h | h
    · exact .inl h
    · exact .inr (Nat.isDigit_of_mem_toDigits (by decide) (by decide) h)
  · exact .inr (Nat.isDigit_of_mem_toDigits (by decide) (by decide) h)

theorem decimal_injective {v w : Int} (h : decimal v = decimal w) : v = w := by
  have inj : ∀ a b : Nat, Nat.toDigits 10 a = Nat.toDigits 10 b → a = b := fun a b h => by
    have := congrArg (fun l => Nat.ofDigitChars 10 l 0) h
    simpa [Nat.ofDigitChars_ten_toDigits] using this
  have noM : ∀ (a : Nat) l, Nat.toDigits 10 a ≠ '-' :: l := fun a l h => by
    have : ('-' : Char).isDigit := Nat.isDigit_of_mem_toDigits (b := 10) (n := a) (by decide) (by decide) (by rw [h]; simp)
    exact absurd this (by decide)
  unfold decimal at h
  split at h <;> split at h
  · have := inj _ _ (List.cons.inj h).2; omega
  · exact absurd h.symm (noM _ _)
  · exact absurd h (noM _ _)
  · have := inj _ _ h; omega

theorem text_injective {v w : Int} (h : text v = text w) : v = w :=
  decimal_injective (by rw [decimal_eq_text, decimal_eq_text, h])

theorem mem_text {c : Char} {v : Int} (h : c ∈ text v) : c = '-' ∨ c.isDigit := mem_decimal (by rwa [decimal_eq_text])

theorem mem_commas {c : Char} {ws : List (List Char)} (h : c ∈ commas ws) : c = ',' ∨ c = ' ' ∨ ∃ w ∈ ws, c ∈ w := by
  induction ws with
  | nil => simp [commas, List.intercalate] at h
  | cons a l ih =>
    cases l with
    | nil => exact .inr (.inr ⟨a, by simp, by simpa [commas, List.intercalate, List.intersperse] using h⟩)
    | cons b l =>
      have h' : c ∈ a ++ ',' :: ' ' :: commas (b :: l) := by
        simpa [commas, List.intercalate, List.intersperse] using h
      simp only [List.mem_append, List.mem_cons] at h'
      rcases h' with h' | h' | h' | h'
      · exact .inr (.inr ⟨a, by simp, h'⟩)
      · exact .inl h'
      · exact .inr (.inl h')
      · rcases ih h' with h | h | ⟨w, hw, hc⟩
        · exact .inl h
        · exact .inr (.inl h)
        · exact .inr (.inr ⟨w, List.mem_cons_of_mem _ hw, hc⟩)

theorem ofFn_inj {α : Type} {n : Nat} {f g : Fin n → α} (h : List.ofFn f = List.ofFn g) (i : Fin n) : f i = g i := by
  have := congrArg (fun l => l[i.val]?) h
  simpa using this

theorem vals_of_commas {n : Nat} {f g : Fin n → Int} (h : commas (List.ofFn fun i => text (f i)) = commas (List.ofFn fun i => text (g i))) :
    f = g := by
  have noC : ∀ v : Int, ',' ∉ text v := fun v h => by
    rcases mem_text h with h | h <;> exact absurd h (by decide)
  have := intercalate_injective ',' [' '] _ _ (by simp) (by
    intro w hw; obtain ⟨i, rfl⟩ := List.mem_ofFn.1 hw; exact noC _) (by
    intro w hw; obtain ⟨i, rfl⟩ := List.mem_ofFn.1 hw; exact noC _) h
  funext i
  exact text_injective (ofFn_inj this i)

theorem vals_of_lines {n k : Nat} {f g : Fin k → Fin n → Int}
    (h : lines (List.ofFn fun j => commas (List.ofFn fun i => text (f j i))) = lines (List.ofFn fun j => commas (List.ofFn fun i => text (g j i)))) :
    f = g := by
  have noC : ∀ f : Fin n → Int, '\n' ∉ commas (List.ofFn fun i => text (f i)) := fun f h => by
    rcases mem_commas h with h | h | ⟨w, hw, hc⟩
    · exact absurd h (by decide)
    · exact absurd h (by decide)
    · obtain ⟨i, rfl⟩ := List.mem_ofFn.1 hw
      rcases mem_text hc with h | h <;> exact absurd h (by decide)
  have := intercalate_injective '\n' [] _ _ (by simp) (by
    intro w hw; obtain ⟨i, rfl⟩ := List.mem_ofFn.1 hw; exact noC _) (by
    intro w hw; obtain ⟨i, rfl⟩ := List.mem_ofFn.1 hw; exact noC _) h
  funext j
  exact vals_of_commas (ofFn_inj this j)

theorem lines2 (os : Stream) (f : Fin 2 → List Char) : os ++ f 0 ++ ['\n'] ++ f 1 = os ++ lines (List.ofFn f) := by
  simp [lines, List.intercalate, List.intersperse, List.ofFn_succ]
theorem lines3 (os : Stream) (f : Fin 3 → List Char) : os ++ f 0 ++ ['\n'] ++ f 1 ++ ['\n'] ++ f 2 = os ++ lines (List.ofFn f) := by
  simp [lines, List.intercalate, List.intersperse, List.ofFn_succ]
theorem lines4 (os : Stream) (f : Fin 4 → List Char) :
    os ++ f 0 ++ ['\n'] ++ f 1 ++ ['\n'] ++ f 2 ++ ['\n'] ++ f 3 = os ++ lines (List.ofFn f) := by
  simp [lines, List.intercalate, List.intersperse, List.ofFn_succ]

theorem ok_append {os x y : Stream} (h : C.ok (os ++ x) = C.ok (os ++ y)) : x = y :=
  List.append_cancel_left (C.ok.inj h)

/-! ## The printers -/

variable [FloatText]


/-- Printing `uint8x8_t`: the lanes in order, separated by ", ". -/
theorem put_u8x8_spec (os : Stream) (v : uint8x8_t) :
    put_u8x8 os v = .ok (os ++ commas (List.ofFn fun i => text ((v.lane i).toNat : Int))) := by
  refine cfor_join (by rfl) (fun i => text ((v.lane i).toNat : Int)) fun i os => ?_
  rw [Vec.get_fin, ← decimal_eq_text]
  rfl

/-- The text determines the `uint8x8_t`. -/
theorem put_u8x8_injective (os : Stream) (v w : uint8x8_t) (h : put_u8x8 os v = put_u8x8 os w) : v = w := by
  rw [put_u8x8_spec, put_u8x8_spec] at h
  have h := vals_of_commas (f := fun i => (((v.lane i).toNat : Nat) : Int)) (g := fun i => (((w.lane i).toNat : Nat) : Int)) (ok_append h)
  exact Vec.ext (funext fun i => BitVec.eq_of_toNat_eq (Int.ofNat.inj (congrFun h i)))

/-- Printing `uint8x16_t`: the lanes in order, separated by ", ". -/
theorem put_u8x16_spec (os : Stream) (v : uint8x16_t) :
    put_u8x16 os v = .ok (os ++ commas (List.ofFn fun i => text ((v.lane i).toNat : Int))) := by
  refine cfor_join (by rfl) (fun i => text ((v.lane i).toNat : Int)) fun i os => ?_
  rw [Vec.get_fin, ← decimal_eq_text]
  rfl

/-- The text determines the `uint8x16_t`. -/
theorem put_u8x16_injective (os : Stream) (v w : uint8x16_t) (h : put_u8x16 os v = put_u8x16 os w) : v = w := by
  rw [put_u8x16_spec, put_u8x16_spec] at h
  have h := vals_of_commas (f := fun i => (((v.lane i).toNat : Nat) : Int)) (g := fun i => (((w.lane i).toNat : Nat) : Int)) (ok_append h)
  exact Vec.ext (funext fun i => BitVec.eq_of_toNat_eq (Int.ofNat.inj (congrFun h i)))

/-- Printing `int8x8_t`: the lanes in order, separated by ", ". -/
theorem put_s8x8_spec (os : Stream) (v : int8x8_t) :
    put_s8x8 os v = .ok (os ++ commas (List.ofFn fun i => text (v.lane i).toInt)) := by
  refine cfor_join (by rfl) (fun i => text (v.lane i).toInt) fun i os => ?_
  rw [Vec.get_fin, ← decimal_eq_text]
  rfl

/-- The text determines the `int8x8_t`. -/
theorem put_s8x8_injective (os : Stream) (v w : int8x8_t) (h : put_s8x8 os v = put_s8x8 os w) : v = w := by
  rw [put_s8x8_spec, put_s8x8_spec] at h
  have h := vals_of_commas (f := fun i => (v.lane i).toInt) (g := fun i => (w.lane i).toInt) (ok_append h)
  exact Vec.ext (funext fun i => BitVec.eq_of_toInt_eq (congrFun h i))

/-- Printing `int8x16_t`: the lanes in order, separated by ", ". -/
theorem put_s8x16_spec (os : Stream) (v : int8x16_t) :
    put_s8x16 os v = .ok (os ++ commas (List.ofFn fun i => text (v.lane i).toInt)) := by
  refine cfor_join (by rfl) (fun i => text (v.lane i).toInt) fun i os => ?_
  rw [Vec.get_fin, ← decimal_eq_text]
  rfl

/-- The text determines the `int8x16_t`. -/
theorem put_s8x16_injective (os : Stream) (v w : int8x16_t) (h : put_s8x16 os v = put_s8x16 os w) : v = w := by
  rw [put_s8x16_spec, put_s8x16_spec] at h
  have h := vals_of_commas (f := fun i => (v.lane i).toInt) (g := fun i => (w.lane i).toInt) (ok_append h)
  exact Vec.ext (funext fun i => BitVec.eq_of_toInt_eq (congrFun h i))

/-- Printing `uint16x4_t`: the lanes in order, separated by ", ". -/
theorem put_u16x4_spec (os : Stream) (v : uint16x4_t) :
    put_u16x4 os v = .ok (os ++ commas (List.ofFn fun i => text ((v.lane i).toNat : Int))) := by
  refine cfor_join (by rfl) (fun i => text ((v.lane i).toNat : Int)) fun i os => ?_
  rw [Vec.get_fin, ← decimal_eq_text]
  rfl

/-- The text determines the `uint16x4_t`. -/
theorem put_u16x4_injective (os : Stream) (v w : uint16x4_t) (h : put_u16x4 os v = put_u16x4 os w) : v = w := by
  rw [put_u16x4_spec, put_u16x4_spec] at h
  have h := vals_of_commas (f := fun i => (((v.lane i).toNat : Nat) : Int)) (g := fun i => (((w.lane i).toNat : Nat) : Int)) (ok_append h)
  exact Vec.ext (funext fun i => BitVec.eq_of_toNat_eq (Int.ofNat.inj (congrFun h i)))

/-- Printing `uint16x8_t`: the lanes in order, separated by ", ". -/
theorem put_u16x8_spec (os : Stream) (v : uint16x8_t) :
    put_u16x8 os v = .ok (os ++ commas (List.ofFn fun i => text ((v.lane i).toNat : Int))) := by
  refine cfor_join (by rfl) (fun i => text ((v.lane i).toNat : Int)) fun i os => ?_
  rw [Vec.get_fin, ← decimal_eq_text]
  rfl

/-- The text determines the `uint16x8_t`. -/
theorem put_u16x8_injective (os : Stream) (v w : uint16x8_t) (h : put_u16x8 os v = put_u16x8 os w) : v = w := by
  rw [put_u16x8_spec, put_u16x8_spec] at h
  have h := vals_of_commas (f := fun i => (((v.lane i).toNat : Nat) : Int)) (g := fun i => (((w.lane i).toNat : Nat) : Int)) (ok_append h)
  exact Vec.ext (funext fun i => BitVec.eq_of_toNat_eq (Int.ofNat.inj (congrFun h i)))

/-- Printing `int16x4_t`: the lanes in order, separated by ", ". -/
theorem put_s16x4_spec (os : Stream) (v : int16x4_t) :
    put_s16x4 os v = .ok (os ++ commas (List.ofFn fun i => text (v.lane i).toInt)) := by
  refine cfor_join (by rfl) (fun i => text (v.lane i).toInt) fun i os => ?_
  rw [Vec.get_fin, ← decimal_eq_text]
  rfl

/-- The text determines the `int16x4_t`. -/
theorem put_s16x4_injective (os : Stream) (v w : int16x4_t) (h : put_s16x4 os v = put_s16x4 os w) : v = w := by
  rw [put_s16x4_spec, put_s16x4_spec] at h
  have h := vals_of_commas (f := fun i => (v.lane i).toInt) (g := fun i => (w.lane i).toInt) (ok_append h)
  exact Vec.ext (funext fun i => BitVec.eq_of_toInt_eq (congrFun h i))

/-- Printing `int16x8_t`: the lanes in order, separated by ", ". -/
theorem put_s16x8_spec (os : Stream) (v : int16x8_t) :
    put_s16x8 os v = .ok (os ++ commas (List.ofFn fun i => text (v.lane i).toInt)) := by
  refine cfor_join (by rfl) (fun i => text (v.lane i).toInt) fun i os => ?_
  rw [Vec.get_fin, ← decimal_eq_text]
  rfl

/-- The text determines the `int16x8_t`. -/
theorem put_s16x8_injective (os : Stream) (v w : int16x8_t) (h : put_s16x8 os v = put_s16x8 os w) : v = w := by
  rw [put_s16x8_spec, put_s16x8_spec] at h
  have h := vals_of_commas (f := fun i => (v.lane i).toInt) (g := fun i => (w.lane i).toInt) (ok_append h)
  exact Vec.ext (funext fun i => BitVec.eq_of_toInt_eq (congrFun h i))

/-- Printing `uint32x2_t`: the lanes in order, separated by ", ". -/
theorem put_u32x2_spec (os : Stream) (v : uint32x2_t) :
    put_u32x2 os v = .ok (os ++ commas (List.ofFn fun i => text ((v.lane i).toNat : Int))) := by
  refine cfor_join (by rfl) (fun i => text ((v.lane i).toNat : Int)) fun i os => ?_
  rw [Vec.get_fin, ← decimal_eq_text]
  rfl

/-- The text determines the `uint32x2_t`. -/
theorem put_u32x2_injective (os : Stream) (v w : uint32x2_t) (h : put_u32x2 os v = put_u32x2 os w) : v = w := by
  rw [put_u32x2_spec, put_u32x2_spec] at h
  have h := vals_of_commas (f := fun i => (((v.lane i).toNat : Nat) : Int)) (g := fun i => (((w.lane i).toNat : Nat) : Int)) (ok_append h)
  exact Vec.ext (funext fun i => BitVec.eq_of_toNat_eq (Int.ofNat.inj (congrFun h i)))

/-- Printing `uint32x4_t`: the lanes in order, separated by ", ". -/
theorem put_u32x4_spec (os : Stream) (v : uint32x4_t) :
    put_u32x4 os v = .ok (os ++ commas (List.ofFn fun i => text ((v.lane i).toNat : Int))) := by
  refine cfor_join (by rfl) (fun i => text ((v.lane i).toNat : Int)) fun i os => ?_
  rw [Vec.get_fin, ← decimal_eq_text]
  rfl

/-- The text determines the `uint32x4_t`. -/
theorem put_u32x4_injective (os : Stream) (v w : uint32x4_t) (h : put_u32x4 os v = put_u32x4 os w) : v = w := by
  rw [put_u32x4_spec, put_u32x4_spec] at h
  have h := vals_of_commas (f := fun i => (((v.lane i).toNat : Nat) : Int)) (g := fun i => (((w.lane i).toNat : Nat) : Int)) (ok_append h)
  exact Vec.ext (funext fun i => BitVec.eq_of_toNat_eq (Int.ofNat.inj (congrFun h i)))

/-- Printing `int32x2_t`: the lanes in order, separated by ", ". -/
theorem put_s32x2_spec (os : Stream) (v : int32x2_t) :
    put_s32x2 os v = .ok (os ++ commas (List.ofFn fun i => text (v.lane i).toInt)) := by
  refine cfor_join (by rfl) (fun i => text (v.lane i).toInt) fun i os => ?_
  rw [Vec.get_fin, ← decimal_eq_text]
  rfl

/-- The text determines the `int32x2_t`. -/
theorem put_s32x2_injective (os : Stream) (v w : int32x2_t) (h : put_s32x2 os v = put_s32x2 os w) : v = w := by
  rw [put_s32x2_spec, put_s32x2_spec] at h
  have h := vals_of_commas (f := fun i => (v.lane i).toInt) (g := fun i => (w.lane i).toInt) (ok_append h)
  exact Vec.ext (funext fun i => BitVec.eq_of_toInt_eq (congrFun h i))

/-- Printing `int32x4_t`: the lanes in order, separated by ", ". -/
theorem put_s32x4_spec (os : Stream) (v : int32x4_t) :
    put_s32x4 os v = .ok (os ++ commas (List.ofFn fun i => text (v.lane i).toInt)) := by
  refine cfor_join (by rfl) (fun i => text (v.lane i).toInt) fun i os => ?_
  rw [Vec.get_fin, ← decimal_eq_text]
  rfl

/-- The text determines the `int32x4_t`. -/
theorem put_s32x4_injective (os : Stream) (v w : int32x4_t) (h : put_s32x4 os v = put_s32x4 os w) : v = w := by
  rw [put_s32x4_spec, put_s32x4_spec] at h
  have h := vals_of_commas (f := fun i => (v.lane i).toInt) (g := fun i => (w.lane i).toInt) (ok_append h)
  exact Vec.ext (funext fun i => BitVec.eq_of_toInt_eq (congrFun h i))

/-- Printing `float32x2_t`: the lanes in order, separated by ", ". -/
theorem put_f32x2_spec (os : Stream) (v : float32x2_t) :
    put_f32x2 os v = .ok (os ++ commas (List.ofFn fun i => FloatText.f32 (v.lane i))) := by
  refine cfor_join (by rfl) (fun i => FloatText.f32 (v.lane i)) fun i os => ?_
  rw [Vec.get_fin]
  rfl

/-- Printing `float32x4_t`: the lanes in order, separated by ", ". -/
theorem put_f32x4_spec (os : Stream) (v : float32x4_t) :
    put_f32x4 os v = .ok (os ++ commas (List.ofFn fun i => FloatText.f32 (v.lane i))) := by
  refine cfor_join (by rfl) (fun i => FloatText.f32 (v.lane i)) fun i os => ?_
  rw [Vec.get_fin]
  rfl

/-- Printing `uint64x1_t`: the lanes in order, separated by ", ". -/
theorem put_u64x1_spec (os : Stream) (v : uint64x1_t) :
    put_u64x1 os v = .ok (os ++ commas (List.ofFn fun i => text ((v.lane i).toNat : Int))) := by
  refine cfor_join (by rfl) (fun i => text ((v.lane i).toNat : Int)) fun i os => ?_
  rw [Vec.get_fin, ← decimal_eq_text]
  rfl

/-- The text determines the `uint64x1_t`. -/
theorem put_u64x1_injective (os : Stream) (v w : uint64x1_t) (h : put_u64x1 os v = put_u64x1 os w) : v = w := by
  rw [put_u64x1_spec, put_u64x1_spec] at h
  have h := vals_of_commas (f := fun i => (((v.lane i).toNat : Nat) : Int)) (g := fun i => (((w.lane i).toNat : Nat) : Int)) (ok_append h)
  exact Vec.ext (funext fun i => BitVec.eq_of_toNat_eq (Int.ofNat.inj (congrFun h i)))

/-- Printing `uint64x2_t`: the lanes in order, separated by ", ". -/
theorem put_u64x2_spec (os : Stream) (v : uint64x2_t) :
    put_u64x2 os v = .ok (os ++ commas (List.ofFn fun i => text ((v.lane i).toNat : Int))) := by
  refine cfor_join (by rfl) (fun i => text ((v.lane i).toNat : Int)) fun i os => ?_
  rw [Vec.get_fin, ← decimal_eq_text]
  rfl

/-- The text determines the `uint64x2_t`. -/
theorem put_u64x2_injective (os : Stream) (v w : uint64x2_t) (h : put_u64x2 os v = put_u64x2 os w) : v = w := by
  rw [put_u64x2_spec, put_u64x2_spec] at h
  have h := vals_of_commas (f := fun i => (((v.lane i).toNat : Nat) : Int)) (g := fun i => (((w.lane i).toNat : Nat) : Int)) (ok_append h)
  exact Vec.ext (funext fun i => BitVec.eq_of_toNat_eq (Int.ofNat.inj (congrFun h i)))

/-- Printing `int64x1_t`: the lanes in order, separated by ", ". -/
theorem put_s64x1_spec (os : Stream) (v : int64x1_t) :
    put_s64x1 os v = .ok (os ++ commas (List.ofFn fun i => text (v.lane i).toInt)) := by
  refine cfor_join (by rfl) (fun i => text (v.lane i).toInt) fun i os => ?_
  rw [Vec.get_fin, ← decimal_eq_text]
  rfl

/-- The text determines the `int64x1_t`. -/
theorem put_s64x1_injective (os : Stream) (v w : int64x1_t) (h : put_s64x1 os v = put_s64x1 os w) : v = w := by
  rw [put_s64x1_spec, put_s64x1_spec] at h
  have h := vals_of_commas (f := fun i => (v.lane i).toInt) (g := fun i => (w.lane i).toInt) (ok_append h)
  exact Vec.ext (funext fun i => BitVec.eq_of_toInt_eq (congrFun h i))

/-- Printing `int64x2_t`: the lanes in order, separated by ", ". -/
theorem put_s64x2_spec (os : Stream) (v : int64x2_t) :
    put_s64x2 os v = .ok (os ++ commas (List.ofFn fun i => text (v.lane i).toInt)) := by
  refine cfor_join (by rfl) (fun i => text (v.lane i).toInt) fun i os => ?_
  rw [Vec.get_fin, ← decimal_eq_text]
  rfl

/-- The text determines the `int64x2_t`. -/
theorem put_s64x2_injective (os : Stream) (v w : int64x2_t) (h : put_s64x2 os v = put_s64x2 os w) : v = w := by
  rw [put_s64x2_spec, put_s64x2_spec] at h
  have h := vals_of_commas (f := fun i => (v.lane i).toInt) (g := fun i => (w.lane i).toInt) (ok_append h)
  exact Vec.ext (funext fun i => BitVec.eq_of_toInt_eq (congrFun h i))

/-- Printing `float64x1_t`: the lanes in order, separated by ", ". -/
theorem put_f64x1_spec (os : Stream) (v : float64x1_t) :
    put_f64x1 os v = .ok (os ++ commas (List.ofFn fun i => FloatText.f64 (v.lane i))) := by
  refine cfor_join (by rfl) (fun i => FloatText.f64 (v.lane i)) fun i os => ?_
  rw [Vec.get_fin]
  rfl

/-- Printing `float64x2_t`: the lanes in order, separated by ", ". -/
theorem put_f64x2_spec (os : Stream) (v : float64x2_t) :
    put_f64x2 os v = .ok (os ++ commas (List.ofFn fun i => FloatText.f64 (v.lane i))) := by
  refine cfor_join (by rfl) (fun i => FloatText.f64 (v.lane i)) fun i os => ?_
  rw [Vec.get_fin]
  rfl

/-- Printing `uint8x8x2_t`: the registers in order, one per line. -/
theorem put_u8x8x2_spec (os : Stream) (v : uint8x8x2_t) :
    put_u8x8x2 os v = .ok (os ++ lines (List.ofFn fun j : Fin 2 => commas (List.ofFn fun i : Fin 8 => text (((v.reg j).lane i).toNat : Int)))) := by
  simp only [put_u8x8x2, put_u8x8_spec, ok_bind, Stream.endl]
  exact congrArg C.ok (lines2 os fun j : Fin 2 => commas (List.ofFn fun i : Fin 8 => text (((v.reg j).lane i).toNat : Int)))

/-- The text determines the `uint8x8x2_t`. -/
theorem put_u8x8x2_injective (os : Stream) (v w : uint8x8x2_t) (h : put_u8x8x2 os v = put_u8x8x2 os w) : v = w := by
  rw [put_u8x8x2_spec, put_u8x8x2_spec] at h
  have h := vals_of_lines (f := fun j i => ((((v.reg j).lane i).toNat : Nat) : Int)) (g := fun j i => ((((w.reg j).lane i).toNat : Nat) : Int)) (ok_append h)
  exact VecArr.ext (funext fun j => Vec.ext (funext fun i => BitVec.eq_of_toNat_eq (Int.ofNat.inj (congrFun (congrFun h j) i))))

/-- Printing `uint8x8x3_t`: the registers in order, one per line. -/
theorem put_u8x8x3_spec (os : Stream) (v : uint8x8x3_t) :
    put_u8x8x3 os v = .ok (os ++ lines (List.ofFn fun j : Fin 3 => commas (List.ofFn fun i : Fin 8 => text (((v.reg j).lane i).toNat : Int)))) := by
  simp only [put_u8x8x3, put_u8x8_spec, ok_bind, Stream.endl]
  exact congrArg C.ok (lines3 os fun j : Fin 3 => commas (List.ofFn fun i : Fin 8 => text (((v.reg j).lane i).toNat : Int)))

/-- The text determines the `uint8x8x3_t`. -/
theorem put_u8x8x3_injective (os : Stream) (v w : uint8x8x3_t) (h : put_u8x8x3 os v = put_u8x8x3 os w) : v = w := by
  rw [put_u8x8x3_spec, put_u8x8x3_spec] at h
  have h := vals_of_lines (f := fun j i => ((((v.reg j).lane i).toNat : Nat) : Int)) (g := fun j i => ((((w.reg j).lane i).toNat : Nat) : Int)) (ok_append h)
  exact VecArr.ext (funext fun j => Vec.ext (funext fun i => BitVec.eq_of_toNat_eq (Int.ofNat.inj (congrFun (congrFun h j) i))))

/-- Printing `uint8x8x4_t`: the registers in order, one per line. -/
theorem put_u8x8x4_spec (os : Stream) (v : uint8x8x4_t) :
    put_u8x8x4 os v = .ok (os ++ lines (List.ofFn fun j : Fin 4 => commas (List.ofFn fun i : Fin 8 => text (((v.reg j).lane i).toNat : Int)))) := by
  simp only [put_u8x8x4, put_u8x8_spec, ok_bind, Stream.endl]
  exact congrArg C.ok (lines4 os fun j : Fin 4 => commas (List.ofFn fun i : Fin 8 => text (((v.reg j).lane i).toNat : Int)))

/-- The text determines the `uint8x8x4_t`. -/
theorem put_u8x8x4_injective (os : Stream) (v w : uint8x8x4_t) (h : put_u8x8x4 os v = put_u8x8x4 os w) : v = w := by
  rw [put_u8x8x4_spec, put_u8x8x4_spec] at h
  have h := vals_of_lines (f := fun j i => ((((v.reg j).lane i).toNat : Nat) : Int)) (g := fun j i => ((((w.reg j).lane i).toNat : Nat) : Int)) (ok_append h)
  exact VecArr.ext (funext fun j => Vec.ext (funext fun i => BitVec.eq_of_toNat_eq (Int.ofNat.inj (congrFun (congrFun h j) i))))

/-- Printing `uint8x16x2_t`: the registers in order, one per line. -/
theorem put_u8x16x2_spec (os : Stream) (v : uint8x16x2_t) :
    put_u8x16x2 os v = .ok (os ++ lines (List.ofFn fun j : Fin 2 => commas (List.ofFn fun i : Fin 16 => text (((v.reg j).lane i).toNat : Int)))) := by
  simp only [put_u8x16x2, put_u8x16_spec, ok_bind, Stream.endl]
  exact congrArg C.ok (lines2 os fun j : Fin 2 => commas (List.ofFn fun i : Fin 16 => text (((v.reg j).lane i).toNat : Int)))

/-- The text determines the `uint8x16x2_t`. -/
theorem put_u8x16x2_injective (os : Stream) (v w : uint8x16x2_t) (h : put_u8x16x2 os v = put_u8x16x2 os w) : v = w := by
  rw [put_u8x16x2_spec, put_u8x16x2_spec] at h
  have h := vals_of_lines (f := fun j i => ((((v.reg j).lane i).toNat : Nat) : Int)) (g := fun j i => ((((w.reg j).lane i).toNat : Nat) : Int)) (ok_append h)
  exact VecArr.ext (funext fun j => Vec.ext (funext fun i => BitVec.eq_of_toNat_eq (Int.ofNat.inj (congrFun (congrFun h j) i))))

/-- Printing `uint8x16x3_t`: the registers in order, one per line. -/
theorem put_u8x16x3_spec (os : Stream) (v : uint8x16x3_t) :
    put_u8x16x3 os v = .ok (os ++ lines (List.ofFn fun j : Fin 3 => commas (List.ofFn fun i : Fin 16 => text (((v.reg j).lane i).toNat : Int)))) := by
  simp only [put_u8x16x3, put_u8x16_spec, ok_bind, Stream.endl]
  exact congrArg C.ok (lines3 os fun j : Fin 3 => commas (List.ofFn fun i : Fin 16 => text (((v.reg j).lane i).toNat : Int)))

/-- The text determines the `uint8x16x3_t`. -/
theorem put_u8x16x3_injective (os : Stream) (v w : uint8x16x3_t) (h : put_u8x16x3 os v = put_u8x16x3 os w) : v = w := by
  rw [put_u8x16x3_spec, put_u8x16x3_spec] at h
  have h := vals_of_lines (f := fun j i => ((((v.reg j).lane i).toNat : Nat) : Int)) (g := fun j i => ((((w.reg j).lane i).toNat : Nat) : Int)) (ok_append h)
  exact VecArr.ext (funext fun j => Vec.ext (funext fun i => BitVec.eq_of_toNat_eq (Int.ofNat.inj (congrFun (congrFun h j) i))))

/-- Printing `uint8x16x4_t`: the registers in order, one per line. -/
theorem put_u8x16x4_spec (os : Stream) (v : uint8x16x4_t) :
    put_u8x16x4 os v = .ok (os ++ lines (List.ofFn fun j : Fin 4 => commas (List.ofFn fun i : Fin 16 => text (((v.reg j).lane i).toNat : Int)))) := by
  simp only [put_u8x16x4, put_u8x16_spec, ok_bind, Stream.endl]
  exact congrArg C.ok (lines4 os fun j : Fin 4 => commas (List.ofFn fun i : Fin 16 => text (((v.reg j).lane i).toNat : Int)))

/-- The text determines the `uint8x16x4_t`. -/
theorem put_u8x16x4_injective (os : Stream) (v w : uint8x16x4_t) (h : put_u8x16x4 os v = put_u8x16x4 os w) : v = w := by
  rw [put_u8x16x4_spec, put_u8x16x4_spec] at h
  have h := vals_of_lines (f := fun j i => ((((v.reg j).lane i).toNat : Nat) : Int)) (g := fun j i => ((((w.reg j).lane i).toNat : Nat) : Int)) (ok_append h)
  exact VecArr.ext (funext fun j => Vec.ext (funext fun i => BitVec.eq_of_toNat_eq (Int.ofNat.inj (congrFun (congrFun h j) i))))

/-- Printing `int8x8x2_t`: the registers in order, one per line. -/
theorem put_s8x8x2_spec (os : Stream) (v : int8x8x2_t) :
    put_s8x8x2 os v = .ok (os ++ lines (List.ofFn fun j : Fin 2 => commas (List.ofFn fun i : Fin 8 => text ((v.reg j).lane i).toInt))) := by
  simp only [put_s8x8x2, put_s8x8_spec, ok_bind, Stream.endl]
  exact congrArg C.ok (lines2 os fun j : Fin 2 => commas (List.ofFn fun i : Fin 8 => text ((v.reg j).lane i).toInt))

/-- The text determines the `int8x8x2_t`. -/
theorem put_s8x8x2_injective (os : Stream) (v w : int8x8x2_t) (h : put_s8x8x2 os v = put_s8x8x2 os w) : v = w := by
  rw [put_s8x8x2_spec, put_s8x8x2_spec] at h
  have h := vals_of_lines (f := fun j i => ((v.reg j).lane i).toInt) (g := fun j i => ((w.reg j).lane i).toInt) (ok_append h)
  exact VecArr.ext (funext fun j => Vec.ext (funext fun i => BitVec.eq_of_toInt_eq (congrFun (congrFun h j) i)))

/-- Printing `int8x8x3_t`: the registers in order, one per line. -/
theorem put_s8x8x3_spec (os : Stream) (v : int8x8x3_t) :
    put_s8x8x3 os v = .ok (os ++ lines (List.ofFn fun j : Fin 3 => commas (List.ofFn fun i : Fin 8 => text ((v.reg j).lane i).toInt))) := by
  simp only [put_s8x8x3, put_s8x8_spec, ok_bind, Stream.endl]
  exact congrArg C.ok (lines3 os fun j : Fin 3 => commas (List.ofFn fun i : Fin 8 => text ((v.reg j).lane i).toInt))

/-- The text determines the `int8x8x3_t`. -/
theorem put_s8x8x3_injective (os : Stream) (v w : int8x8x3_t) (h : put_s8x8x3 os v = put_s8x8x3 os w) : v = w := by
  rw [put_s8x8x3_spec, put_s8x8x3_spec] at h
  have h := vals_of_lines (f := fun j i => ((v.reg j).lane i).toInt) (g := fun j i => ((w.reg j).lane i).toInt) (ok_append h)
  exact VecArr.ext (funext fun j => Vec.ext (funext fun i => BitVec.eq_of_toInt_eq (congrFun (congrFun h j) i)))

/-- Printing `int8x8x4_t`: the registers in order, one per line. -/
theorem put_s8x8x4_spec (os : Stream) (v : int8x8x4_t) :
    put_s8x8x4 os v = .ok (os ++ lines (List.ofFn fun j : Fin 4 => commas (List.ofFn fun i : Fin 8 => text ((v.reg j).lane i).toInt))) := by
  simp only [put_s8x8x4, put_s8x8_spec, ok_bind, Stream.endl]
  exact congrArg C.ok (lines4 os fun j : Fin 4 => commas (List.ofFn fun i : Fin 8 => text ((v.reg j).lane i).toInt))

/-- The text determines the `int8x8x4_t`. -/
theorem put_s8x8x4_injective (os : Stream) (v w : int8x8x4_t) (h : put_s8x8x4 os v = put_s8x8x4 os w) : v = w := by
  rw [put_s8x8x4_spec, put_s8x8x4_spec] at h
  have h := vals_of_lines (f := fun j i => ((v.reg j).lane i).toInt) (g := fun j i => ((w.reg j).lane i).toInt) (ok_append h)
  exact VecArr.ext (funext fun j => Vec.ext (funext fun i => BitVec.eq_of_toInt_eq (congrFun (congrFun h j) i)))

/-- Printing `int8x16x2_t`: the registers in order, one per line. -/
theorem put_s8x16x2_spec (os : Stream) (v : int8x16x2_t) :
    put_s8x16x2 os v = .ok (os ++ lines (List.ofFn fun j : Fin 2 => commas (List.ofFn fun i : Fin 16 => text ((v.reg j).lane i).toInt))) := by
  simp only [put_s8x16x2, put_s8x16_spec, ok_bind, Stream.endl]
  exact congrArg C.ok (lines2 os fun j : Fin 2 => commas (List.ofFn fun i : Fin 16 => text ((v.reg j).lane i).toInt))

/-- The text determines the `int8x16x2_t`. -/
theorem put_s8x16x2_injective (os : Stream) (v w : int8x16x2_t) (h : put_s8x16x2 os v = put_s8x16x2 os w) : v = w := by
  rw [put_s8x16x2_spec, put_s8x16x2_spec] at h
  have h := vals_of_lines (f := fun j i => ((v.reg j).lane i).toInt) (g := fun j i => ((w.reg j).lane i).toInt) (ok_append h)
  exact VecArr.ext (funext fun j => Vec.ext (funext fun i => BitVec.eq_of_toInt_eq (congrFun (congrFun h j) i)))

/-- Printing `int8x16x3_t`: the registers in order, one per line. -/
theorem put_s8x16x3_spec (os : Stream) (v : int8x16x3_t) :
    put_s8x16x3 os v = .ok (os ++ lines (List.ofFn fun j : Fin 3 => commas (List.ofFn fun i : Fin 16 => text ((v.reg j).lane i).toInt))) := by
  simp only [put_s8x16x3, put_s8x16_spec, ok_bind, Stream.endl]
  exact congrArg C.ok (lines3 os fun j : Fin 3 => commas (List.ofFn fun i : Fin 16 => text ((v.reg j).lane i).toInt))

/-- The text determines the `int8x16x3_t`. -/
theorem put_s8x16x3_injective (os : Stream) (v w : int8x16x3_t) (h : put_s8x16x3 os v = put_s8x16x3 os w) : v = w := by
  rw [put_s8x16x3_spec, put_s8x16x3_spec] at h
  have h := vals_of_lines (f := fun j i => ((v.reg j).lane i).toInt) (g := fun j i => ((w.reg j).lane i).toInt) (ok_append h)
  exact VecArr.ext (funext fun j => Vec.ext (funext fun i => BitVec.eq_of_toInt_eq (congrFun (congrFun h j) i)))

/-- Printing `int8x16x4_t`: the registers in order, one per line. -/
theorem put_s8x16x4_spec (os : Stream) (v : int8x16x4_t) :
    put_s8x16x4 os v = .ok (os ++ lines (List.ofFn fun j : Fin 4 => commas (List.ofFn fun i : Fin 16 => text ((v.reg j).lane i).toInt))) := by
  simp only [put_s8x16x4, put_s8x16_spec, ok_bind, Stream.endl]
  exact congrArg C.ok (lines4 os fun j : Fin 4 => commas (List.ofFn fun i : Fin 16 => text ((v.reg j).lane i).toInt))

/-- The text determines the `int8x16x4_t`. -/
theorem put_s8x16x4_injective (os : Stream) (v w : int8x16x4_t) (h : put_s8x16x4 os v = put_s8x16x4 os w) : v = w := by
  rw [put_s8x16x4_spec, put_s8x16x4_spec] at h
  have h := vals_of_lines (f := fun j i => ((v.reg j).lane i).toInt) (g := fun j i => ((w.reg j).lane i).toInt) (ok_append h)
  exact VecArr.ext (funext fun j => Vec.ext (funext fun i => BitVec.eq_of_toInt_eq (congrFun (congrFun h j) i)))

/-- Printing `uint16x4x2_t`: the registers in order, one per line. -/
theorem put_u16x4x2_spec (os : Stream) (v : uint16x4x2_t) :
    put_u16x4x2 os v = .ok (os ++ lines (List.ofFn fun j : Fin 2 => commas (List.ofFn fun i : Fin 4 => text (((v.reg j).lane i).toNat : Int)))) := by
  simp only [put_u16x4x2, put_u16x4_spec, ok_bind, Stream.endl]
  exact congrArg C.ok (lines2 os fun j : Fin 2 => commas (List.ofFn fun i : Fin 4 => text (((v.reg j).lane i).toNat : Int)))

/-- The text determines the `uint16x4x2_t`. -/
theorem put_u16x4x2_injective (os : Stream) (v w : uint16x4x2_t) (h : put_u16x4x2 os v = put_u16x4x2 os w) : v = w := by
  rw [put_u16x4x2_spec, put_u16x4x2_spec] at h
  have h := vals_of_lines (f := fun j i => ((((v.reg j).lane i).toNat : Nat) : Int)) (g := fun j i => ((((w.reg j).lane i).toNat : Nat) : Int)) (ok_append h)
  exact VecArr.ext (funext fun j => Vec.ext (funext fun i => BitVec.eq_of_toNat_eq (Int.ofNat.inj (congrFun (congrFun h j) i))))

/-- Printing `uint16x4x3_t`: the registers in order, one per line. -/
theorem put_u16x4x3_spec (os : Stream) (v : uint16x4x3_t) :
    put_u16x4x3 os v = .ok (os ++ lines (List.ofFn fun j : Fin 3 => commas (List.ofFn fun i : Fin 4 => text (((v.reg j).lane i).toNat : Int)))) := by
  simp only [put_u16x4x3, put_u16x4_spec, ok_bind, Stream.endl]
  exact congrArg C.ok (lines3 os fun j : Fin 3 => commas (List.ofFn fun i : Fin 4 => text (((v.reg j).lane i).toNat : Int)))

/-- The text determines the `uint16x4x3_t`. -/
theorem put_u16x4x3_injective (os : Stream) (v w : uint16x4x3_t) (h : put_u16x4x3 os v = put_u16x4x3 os w) : v = w := by
  rw [put_u16x4x3_spec, put_u16x4x3_spec] at h
  have h := vals_of_lines (f := fun j i => ((((v.reg j).lane i).toNat : Nat) : Int)) (g := fun j i => ((((w.reg j).lane i).toNat : Nat) : Int)) (ok_append h)
  exact VecArr.ext (funext fun j => Vec.ext (funext fun i => BitVec.eq_of_toNat_eq (Int.ofNat.inj (congrFun (congrFun h j) i))))

/-- Printing `uint16x4x4_t`: the registers in order, one per line. -/
theorem put_u16x4x4_spec (os : Stream) (v : uint16x4x4_t) :
    put_u16x4x4 os v = .ok (os ++ lines (List.ofFn fun j : Fin 4 => commas (List.ofFn fun i : Fin 4 => text (((v.reg j).lane i).toNat : Int)))) := by
  simp only [put_u16x4x4, put_u16x4_spec, ok_bind, Stream.endl]
  exact congrArg C.ok (lines4 os fun j : Fin 4 => commas (List.ofFn fun i : Fin 4 => text (((v.reg j).lane i).toNat : Int)))

/-- The text determines the `uint16x4x4_t`. -/
theorem put_u16x4x4_injective (os : Stream) (v w : uint16x4x4_t) (h : put_u16x4x4 os v = put_u16x4x4 os w) : v = w := by
  rw [put_u16x4x4_spec, put_u16x4x4_spec] at h
  have h := vals_of_lines (f := fun j i => ((((v.reg j).lane i).toNat : Nat) : Int)) (g := fun j i => ((((w.reg j).lane i).toNat : Nat) : Int)) (ok_append h)
  exact VecArr.ext (funext fun j => Vec.ext (funext fun i => BitVec.eq_of_toNat_eq (Int.ofNat.inj (congrFun (congrFun h j) i))))

/-- Printing `uint16x8x2_t`: the registers in order, one per line. -/
theorem put_u16x8x2_spec (os : Stream) (v : uint16x8x2_t) :
    put_u16x8x2 os v = .ok (os ++ lines (List.ofFn fun j : Fin 2 => commas (List.ofFn fun i : Fin 8 => text (((v.reg j).lane i).toNat : Int)))) := by
  simp only [put_u16x8x2, put_u16x8_spec, ok_bind, Stream.endl]
  exact congrArg C.ok (lines2 os fun j : Fin 2 => commas (List.ofFn fun i : Fin 8 => text (((v.reg j).lane i).toNat : Int)))

/-- The text determines the `uint16x8x2_t`. -/
theorem put_u16x8x2_injective (os : Stream) (v w : uint16x8x2_t) (h : put_u16x8x2 os v = put_u16x8x2 os w) : v = w := by
  rw [put_u16x8x2_spec, put_u16x8x2_spec] at h
  have h := vals_of_lines (f := fun j i => ((((v.reg j).lane i).toNat : Nat) : Int)) (g := fun j i => ((((w.reg j).lane i).toNat : Nat) : Int)) (ok_append h)
  exact VecArr.ext (funext fun j => Vec.ext (funext fun i => BitVec.eq_of_toNat_eq (Int.ofNat.inj (congrFun (congrFun h j) i))))

/-- Printing `uint16x8x3_t`: the registers in order, one per line. -/
theorem put_u16x8x3_spec (os : Stream) (v : uint16x8x3_t) :
    put_u16x8x3 os v = .ok (os ++ lines (List.ofFn fun j : Fin 3 => commas (List.ofFn fun i : Fin 8 => text (((v.reg j).lane i).toNat : Int)))) := by
  simp only [put_u16x8x3, put_u16x8_spec, ok_bind, Stream.endl]
  exact congrArg C.ok (lines3 os fun j : Fin 3 => commas (List.ofFn fun i : Fin 8 => text (((v.reg j).lane i).toNat : Int)))

/-- The text determines the `uint16x8x3_t`. -/
theorem put_u16x8x3_injective (os : Stream) (v w : uint16x8x3_t) (h : put_u16x8x3 os v = put_u16x8x3 os w) : v = w := by
  rw [put_u16x8x3_spec, put_u16x8x3_spec] at h
  have h := vals_of_lines (f := fun j i => ((((v.reg j).lane i).toNat : Nat) : Int)) (g := fun j i => ((((w.reg j).lane i).toNat : Nat) : Int)) (ok_append h)
  exact VecArr.ext (funext fun j => Vec.ext (funext fun i => BitVec.eq_of_toNat_eq (Int.ofNat.inj (congrFun (congrFun h j) i))))

/-- Printing `uint16x8x4_t`: the registers in order, one per line. -/
theorem put_u16x8x4_spec (os : Stream) (v : uint16x8x4_t) :
    put_u16x8x4 os v = .ok (os ++ lines (List.ofFn fun j : Fin 4 => commas (List.ofFn fun i : Fin 8 => text (((v.reg j).lane i).toNat : Int)))) := by
  simp only [put_u16x8x4, put_u16x8_spec, ok_bind, Stream.endl]
  exact congrArg C.ok (lines4 os fun j : Fin 4 => commas (List.ofFn fun i : Fin 8 => text (((v.reg j).lane i).toNat : Int)))

/-- The text determines the `uint16x8x4_t`. -/
theorem put_u16x8x4_injective (os : Stream) (v w : uint16x8x4_t) (h : put_u16x8x4 os v = put_u16x8x4 os w) : v = w := by
  rw [put_u16x8x4_spec, put_u16x8x4_spec] at h
  have h := vals_of_lines (f := fun j i => ((((v.reg j).lane i).toNat : Nat) : Int)) (g := fun j i => ((((w.reg j).lane i).toNat : Nat) : Int)) (ok_append h)
  exact VecArr.ext (funext fun j => Vec.ext (funext fun i => BitVec.eq_of_toNat_eq (Int.ofNat.inj (congrFun (congrFun h j) i))))

/-- Printing `int16x4x2_t`: the registers in order, one per line. -/
theorem put_s16x4x2_spec (os : Stream) (v : int16x4x2_t) :
    put_s16x4x2 os v = .ok (os ++ lines (List.ofFn fun j : Fin 2 => commas (List.ofFn fun i : Fin 4 => text ((v.reg j).lane i).toInt))) := by
  simp only [put_s16x4x2, put_s16x4_spec, ok_bind, Stream.endl]
  exact congrArg C.ok (lines2 os fun j : Fin 2 => commas (List.ofFn fun i : Fin 4 => text ((v.reg j).lane i).toInt))

/-- The text determines the `int16x4x2_t`. -/
theorem put_s16x4x2_injective (os : Stream) (v w : int16x4x2_t) (h : put_s16x4x2 os v = put_s16x4x2 os w) : v = w := by
  rw [put_s16x4x2_spec, put_s16x4x2_spec] at h
  have h := vals_of_lines (f := fun j i => ((v.reg j).lane i).toInt) (g := fun j i => ((w.reg j).lane i).toInt) (ok_append h)
  exact VecArr.ext (funext fun j => Vec.ext (funext fun i => BitVec.eq_of_toInt_eq (congrFun (congrFun h j) i)))

/-- Printing `int16x4x3_t`: the registers in order, one per line. -/
theorem put_s16x4x3_spec (os : Stream) (v : int16x4x3_t) :
    put_s16x4x3 os v = .ok (os ++ lines (List.ofFn fun j : Fin 3 => commas (List.ofFn fun i : Fin 4 => text ((v.reg j).lane i).toInt))) := by
  simp only [put_s16x4x3, put_s16x4_spec, ok_bind, Stream.endl]
  exact congrArg C.ok (lines3 os fun j : Fin 3 => commas (List.ofFn fun i : Fin 4 => text ((v.reg j).lane i).toInt))

/-- The text determines the `int16x4x3_t`. -/
theorem put_s16x4x3_injective (os : Stream) (v w : int16x4x3_t) (h : put_s16x4x3 os v = put_s16x4x3 os w) : v = w := by
  rw [put_s16x4x3_spec, put_s16x4x3_spec] at h
  have h := vals_of_lines (f := fun j i => ((v.reg j).lane i).toInt) (g := fun j i => ((w.reg j).lane i).toInt) (ok_append h)
  exact VecArr.ext (funext fun j => Vec.ext (funext fun i => BitVec.eq_of_toInt_eq (congrFun (congrFun h j) i)))

/-- Printing `int16x4x4_t`: the registers in order, one per line. -/
theorem put_s16x4x4_spec (os : Stream) (v : int16x4x4_t) :
    put_s16x4x4 os v = .ok (os ++ lines (List.ofFn fun j : Fin 4 => commas (List.ofFn fun i : Fin 4 => text ((v.reg j).lane i).toInt))) := by
  simp only [put_s16x4x4, put_s16x4_spec, ok_bind, Stream.endl]
  exact congrArg C.ok (lines4 os fun j : Fin 4 => commas (List.ofFn fun i : Fin 4 => text ((v.reg j).lane i).toInt))

/-- The text determines the `int16x4x4_t`. -/
theorem put_s16x4x4_injective (os : Stream) (v w : int16x4x4_t) (h : put_s16x4x4 os v = put_s16x4x4 os w) : v = w := by
  rw [put_s16x4x4_spec, put_s16x4x4_spec] at h
  have h := vals_of_lines (f := fun j i => ((v.reg j).lane i).toInt) (g := fun j i => ((w.reg j).lane i).toInt) (ok_append h)
  exact VecArr.ext (funext fun j => Vec.ext (funext fun i => BitVec.eq_of_toInt_eq (congrFun (congrFun h j) i)))

/-- Printing `int16x8x2_t`: the registers in order, one per line. -/
theorem put_s16x8x2_spec (os : Stream) (v : int16x8x2_t) :
    put_s16x8x2 os v = .ok (os ++ lines (List.ofFn fun j : Fin 2 => commas (List.ofFn fun i : Fin 8 => text ((v.reg j).lane i).toInt))) := by
  simp only [put_s16x8x2, put_s16x8_spec, ok_bind, Stream.endl]
  exact congrArg C.ok (lines2 os fun j : Fin 2 => commas (List.ofFn fun i : Fin 8 => text ((v.reg j).lane i).toInt))

/-- The text determines the `int16x8x2_t`. -/
theorem put_s16x8x2_injective (os : Stream) (v w : int16x8x2_t) (h : put_s16x8x2 os v = put_s16x8x2 os w) : v = w := by
  rw [put_s16x8x2_spec, put_s16x8x2_spec] at h
  have h := vals_of_lines (f := fun j i => ((v.reg j).lane i).toInt) (g := fun j i => ((w.reg j).lane i).toInt) (ok_append h)
  exact VecArr.ext (funext fun j => Vec.ext (funext fun i => BitVec.eq_of_toInt_eq (congrFun (congrFun h j) i)))

/-- Printing `int16x8x3_t`: the registers in order, one per line. -/
theorem put_s16x8x3_spec (os : Stream) (v : int16x8x3_t) :
    put_s16x8x3 os v = .ok (os ++ lines (List.ofFn fun j : Fin 3 => commas (List.ofFn fun i : Fin 8 => text ((v.reg j).lane i).toInt))) := by
  simp only [put_s16x8x3, put_s16x8_spec, ok_bind, Stream.endl]
  exact congrArg C.ok (lines3 os fun j : Fin 3 => commas (List.ofFn fun i : Fin 8 => text ((v.reg j).lane i).toInt))

/-- The text determines the `int16x8x3_t`. -/
theorem put_s16x8x3_injective (os : Stream) (v w : int16x8x3_t) (h : put_s16x8x3 os v = put_s16x8x3 os w) : v = w := by
  rw [put_s16x8x3_spec, put_s16x8x3_spec] at h
  have h := vals_of_lines (f := fun j i => ((v.reg j).lane i).toInt) (g := fun j i => ((w.reg j).lane i).toInt) (ok_append h)
  exact VecArr.ext (funext fun j => Vec.ext (funext fun i => BitVec.eq_of_toInt_eq (congrFun (congrFun h j) i)))

/-- Printing `int16x8x4_t`: the registers in order, one per line. -/
theorem put_s16x8x4_spec (os : Stream) (v : int16x8x4_t) :
    put_s16x8x4 os v = .ok (os ++ lines (List.ofFn fun j : Fin 4 => commas (List.ofFn fun i : Fin 8 => text ((v.reg j).lane i).toInt))) := by
  simp only [put_s16x8x4, put_s16x8_spec, ok_bind, Stream.endl]
  exact congrArg C.ok (lines4 os fun j : Fin 4 => commas (List.ofFn fun i : Fin 8 => text ((v.reg j).lane i).toInt))

/-- The text determines the `int16x8x4_t`. -/
theorem put_s16x8x4_injective (os : Stream) (v w : int16x8x4_t) (h : put_s16x8x4 os v = put_s16x8x4 os w) : v = w := by
  rw [put_s16x8x4_spec, put_s16x8x4_spec] at h
  have h := vals_of_lines (f := fun j i => ((v.reg j).lane i).toInt) (g := fun j i => ((w.reg j).lane i).toInt) (ok_append h)
  exact VecArr.ext (funext fun j => Vec.ext (funext fun i => BitVec.eq_of_toInt_eq (congrFun (congrFun h j) i)))

/-- Printing `uint32x2x2_t`: the registers in order, one per line. -/
theorem put_u32x2x2_spec (os : Stream) (v : uint32x2x2_t) :
    put_u32x2x2 os v = .ok (os ++ lines (List.ofFn fun j : Fin 2 => commas (List.ofFn fun i : Fin 2 => text (((v.reg j).lane i).toNat : Int)))) := by
  simp only [put_u32x2x2, put_u32x2_spec, ok_bind, Stream.endl]
  exact congrArg C.ok (lines2 os fun j : Fin 2 => commas (List.ofFn fun i : Fin 2 => text (((v.reg j).lane i).toNat : Int)))

/-- The text determines the `uint32x2x2_t`. -/
theorem put_u32x2x2_injective (os : Stream) (v w : uint32x2x2_t) (h : put_u32x2x2 os v = put_u32x2x2 os w) : v = w := by
  rw [put_u32x2x2_spec, put_u32x2x2_spec] at h
  have h := vals_of_lines (f := fun j i => ((((v.reg j).lane i).toNat : Nat) : Int)) (g := fun j i => ((((w.reg j).lane i).toNat : Nat) : Int)) (ok_append h)
  exact VecArr.ext (funext fun j => Vec.ext (funext fun i => BitVec.eq_of_toNat_eq (Int.ofNat.inj (congrFun (congrFun h j) i))))

/-- Printing `uint32x2x3_t`: the registers in order, one per line. -/
theorem put_u32x2x3_spec (os : Stream) (v : uint32x2x3_t) :
    put_u32x2x3 os v = .ok (os ++ lines (List.ofFn fun j : Fin 3 => commas (List.ofFn fun i : Fin 2 => text (((v.reg j).lane i).toNat : Int)))) := by
  simp only [put_u32x2x3, put_u32x2_spec, ok_bind, Stream.endl]
  exact congrArg C.ok (lines3 os fun j : Fin 3 => commas (List.ofFn fun i : Fin 2 => text (((v.reg j).lane i).toNat : Int)))

/-- The text determines the `uint32x2x3_t`. -/
theorem put_u32x2x3_injective (os : Stream) (v w : uint32x2x3_t) (h : put_u32x2x3 os v = put_u32x2x3 os w) : v = w := by
  rw [put_u32x2x3_spec, put_u32x2x3_spec] at h
  have h := vals_of_lines (f := fun j i => ((((v.reg j).lane i).toNat : Nat) : Int)) (g := fun j i => ((((w.reg j).lane i).toNat : Nat) : Int)) (ok_append h)
  exact VecArr.ext (funext fun j => Vec.ext (funext fun i => BitVec.eq_of_toNat_eq (Int.ofNat.inj (congrFun (congrFun h j) i))))

/-- Printing `uint32x2x4_t`: the registers in order, one per line. -/
theorem put_u32x2x4_spec (os : Stream) (v : uint32x2x4_t) :
    put_u32x2x4 os v = .ok (os ++ lines (List.ofFn fun j : Fin 4 => commas (List.ofFn fun i : Fin 2 => text (((v.reg j).lane i).toNat : Int)))) := by
  simp only [put_u32x2x4, put_u32x2_spec, ok_bind, Stream.endl]
  exact congrArg C.ok (lines4 os fun j : Fin 4 => commas (List.ofFn fun i : Fin 2 => text (((v.reg j).lane i).toNat : Int)))

/-- The text determines the `uint32x2x4_t`. -/
theorem put_u32x2x4_injective (os : Stream) (v w : uint32x2x4_t) (h : put_u32x2x4 os v = put_u32x2x4 os w) : v = w := by
  rw [put_u32x2x4_spec, put_u32x2x4_spec] at h
  have h := vals_of_lines (f := fun j i => ((((v.reg j).lane i).toNat : Nat) : Int)) (g := fun j i => ((((w.reg j).lane i).toNat : Nat) : Int)) (ok_append h)
  exact VecArr.ext (funext fun j => Vec.ext (funext fun i => BitVec.eq_of_toNat_eq (Int.ofNat.inj (congrFun (congrFun h j) i))))

/-- Printing `uint32x4x2_t`: the registers in order, one per line. -/
theorem put_u32x4x2_spec (os : Stream) (v : uint32x4x2_t) :
    put_u32x4x2 os v = .ok (os ++ lines (List.ofFn fun j : Fin 2 => commas (List.ofFn fun i : Fin 4 => text (((v.reg j).lane i).toNat : Int)))) := by
  simp only [put_u32x4x2, put_u32x4_spec, ok_bind, Stream.endl]
  exact congrArg C.ok (lines2 os fun j : Fin 2 => commas (List.ofFn fun i : Fin 4 => text (((v.reg j).lane i).toNat : Int)))

/-- The text determines the `uint32x4x2_t`. -/
theorem put_u32x4x2_injective (os : Stream) (v w : uint32x4x2_t) (h : put_u32x4x2 os v = put_u32x4x2 os w) : v = w := by
  rw [put_u32x4x2_spec, put_u32x4x2_spec] at h
  have h := vals_of_lines (f := fun j i => ((((v.reg j).lane i).toNat : Nat) : Int)) (g := fun j i => ((((w.reg j).lane i).toNat : Nat) : Int)) (ok_append h)
  exact VecArr.ext (funext fun j => Vec.ext (funext fun i => BitVec.eq_of_toNat_eq (Int.ofNat.inj (congrFun (congrFun h j) i))))

/-- Printing `uint32x4x3_t`: the registers in order, one per line. -/
theorem put_u32x4x3_spec (os : Stream) (v : uint32x4x3_t) :
    put_u32x4x3 os v = .ok (os ++ lines (List.ofFn fun j : Fin 3 => commas (List.ofFn fun i : Fin 4 => text (((v.reg j).lane i).toNat : Int)))) := by
  simp only [put_u32x4x3, put_u32x4_spec, ok_bind, Stream.endl]
  exact congrArg C.ok (lines3 os fun j : Fin 3 => commas (List.ofFn fun i : Fin 4 => text (((v.reg j).lane i).toNat : Int)))

/-- The text determines the `uint32x4x3_t`. -/
theorem put_u32x4x3_injective (os : Stream) (v w : uint32x4x3_t) (h : put_u32x4x3 os v = put_u32x4x3 os w) : v = w := by
  rw [put_u32x4x3_spec, put_u32x4x3_spec] at h
  have h := vals_of_lines (f := fun j i => ((((v.reg j).lane i).toNat : Nat) : Int)) (g := fun j i => ((((w.reg j).lane i).toNat : Nat) : Int)) (ok_append h)
  exact VecArr.ext (funext fun j => Vec.ext (funext fun i => BitVec.eq_of_toNat_eq (Int.ofNat.inj (congrFun (congrFun h j) i))))

/-- Printing `uint32x4x4_t`: the registers in order, one per line. -/
theorem put_u32x4x4_spec (os : Stream) (v : uint32x4x4_t) :
    put_u32x4x4 os v = .ok (os ++ lines (List.ofFn fun j : Fin 4 => commas (List.ofFn fun i : Fin 4 => text (((v.reg j).lane i).toNat : Int)))) := by
  simp only [put_u32x4x4, put_u32x4_spec, ok_bind, Stream.endl]
  exact congrArg C.ok (lines4 os fun j : Fin 4 => commas (List.ofFn fun i : Fin 4 => text (((v.reg j).lane i).toNat : Int)))

/-- The text determines the `uint32x4x4_t`. -/
theorem put_u32x4x4_injective (os : Stream) (v w : uint32x4x4_t) (h : put_u32x4x4 os v = put_u32x4x4 os w) : v = w := by
  rw [put_u32x4x4_spec, put_u32x4x4_spec] at h
  have h := vals_of_lines (f := fun j i => ((((v.reg j).lane i).toNat : Nat) : Int)) (g := fun j i => ((((w.reg j).lane i).toNat : Nat) : Int)) (ok_append h)
  exact VecArr.ext (funext fun j => Vec.ext (funext fun i => BitVec.eq_of_toNat_eq (Int.ofNat.inj (congrFun (congrFun h j) i))))

/-- Printing `int32x2x2_t`: the registers in order, one per line. -/
theorem put_s32x2x2_spec (os : Stream) (v : int32x2x2_t) :
    put_s32x2x2 os v = .ok (os ++ lines (List.ofFn fun j : Fin 2 => commas (List.ofFn fun i : Fin 2 => text ((v.reg j).lane i).toInt))) := by
  simp only [put_s32x2x2, put_s32x2_spec, ok_bind, Stream.endl]
  exact congrArg C.ok (lines2 os fun j : Fin 2 => commas (List.ofFn fun i : Fin 2 => text ((v.reg j).lane i).toInt))

/-- The text determines the `int32x2x2_t`. -/
theorem put_s32x2x2_injective (os : Stream) (v w : int32x2x2_t) (h : put_s32x2x2 os v = put_s32x2x2 os w) : v = w := by
  rw [put_s32x2x2_spec, put_s32x2x2_spec] at h
  have h := vals_of_lines (f := fun j i => ((v.reg j).lane i).toInt) (g := fun j i => ((w.reg j).lane i).toInt) (ok_append h)
  exact VecArr.ext (funext fun j => Vec.ext (funext fun i => BitVec.eq_of_toInt_eq (congrFun (congrFun h j) i)))

/-- Printing `int32x2x3_t`: the registers in order, one per line. -/
theorem put_s32x2x3_spec (os : Stream) (v : int32x2x3_t) :
    put_s32x2x3 os v = .ok (os ++ lines (List.ofFn fun j : Fin 3 => commas (List.ofFn fun i : Fin 2 => text ((v.reg j).lane i).toInt))) := by
  simp only [put_s32x2x3, put_s32x2_spec, ok_bind, Stream.endl]
  exact congrArg C.ok (lines3 os fun j : Fin 3 => commas (List.ofFn fun i : Fin 2 => text ((v.reg j).lane i).toInt))

/-- The text determines the `int32x2x3_t`. -/
theorem put_s32x2x3_injective (os : Stream) (v w : int32x2x3_t) (h : put_s32x2x3 os v = put_s32x2x3 os w) : v = w := by
  rw [put_s32x2x3_spec, put_s32x2x3_spec] at h
  have h := vals_of_lines (f := fun j i => ((v.reg j).lane i).toInt) (g := fun j i => ((w.reg j).lane i).toInt) (ok_append h)
  exact VecArr.ext (funext fun j => Vec.ext (funext fun i => BitVec.eq_of_toInt_eq (congrFun (congrFun h j) i)))

/-- Printing `int32x2x4_t`: the registers in order, one per line. -/
theorem put_s32x2x4_spec (os : Stream) (v : int32x2x4_t) :
    put_s32x2x4 os v = .ok (os ++ lines (List.ofFn fun j : Fin 4 => commas (List.ofFn fun i : Fin 2 => text ((v.reg j).lane i).toInt))) := by
  simp only [put_s32x2x4, put_s32x2_spec, ok_bind, Stream.endl]
  exact congrArg C.ok (lines4 os fun j : Fin 4 => commas (List.ofFn fun i : Fin 2 => text ((v.reg j).lane i).toInt))

/-- The text determines the `int32x2x4_t`. -/
theorem put_s32x2x4_injective (os : Stream) (v w : int32x2x4_t) (h : put_s32x2x4 os v = put_s32x2x4 os w) : v = w := by
  rw [put_s32x2x4_spec, put_s32x2x4_spec] at h
  have h := vals_of_lines (f := fun j i => ((v.reg j).lane i).toInt) (g := fun j i => ((w.reg j).lane i).toInt) (ok_append h)
  exact VecArr.ext (funext fun j => Vec.ext (funext fun i => BitVec.eq_of_toInt_eq (congrFun (congrFun h j) i)))

/-- Printing `int32x4x2_t`: the registers in order, one per line. -/
theorem put_s32x4x2_spec (os : Stream) (v : int32x4x2_t) :
    put_s32x4x2 os v = .ok (os ++ lines (List.ofFn fun j : Fin 2 => commas (List.ofFn fun i : Fin 4 => text ((v.reg j).lane i).toInt))) := by
  simp only [put_s32x4x2, put_s32x4_spec, ok_bind, Stream.endl]
  exact congrArg C.ok (lines2 os fun j : Fin 2 => commas (List.ofFn fun i : Fin 4 => text ((v.reg j).lane i).toInt))

/-- The text determines the `int32x4x2_t`. -/
theorem put_s32x4x2_injective (os : Stream) (v w : int32x4x2_t) (h : put_s32x4x2 os v = put_s32x4x2 os w) : v = w := by
  rw [put_s32x4x2_spec, put_s32x4x2_spec] at h
  have h := vals_of_lines (f := fun j i => ((v.reg j).lane i).toInt) (g := fun j i => ((w.reg j).lane i).toInt) (ok_append h)
  exact VecArr.ext (funext fun j => Vec.ext (funext fun i => BitVec.eq_of_toInt_eq (congrFun (congrFun h j) i)))

/-- Printing `int32x4x3_t`: the registers in order, one per line. -/
theorem put_s32x4x3_spec (os : Stream) (v : int32x4x3_t) :
    put_s32x4x3 os v = .ok (os ++ lines (List.ofFn fun j : Fin 3 => commas (List.ofFn fun i : Fin 4 => text ((v.reg j).lane i).toInt))) := by
  simp only [put_s32x4x3, put_s32x4_spec, ok_bind, Stream.endl]
  exact congrArg C.ok (lines3 os fun j : Fin 3 => commas (List.ofFn fun i : Fin 4 => text ((v.reg j).lane i).toInt))

/-- The text determines the `int32x4x3_t`. -/
theorem put_s32x4x3_injective (os : Stream) (v w : int32x4x3_t) (h : put_s32x4x3 os v = put_s32x4x3 os w) : v = w := by
  rw [put_s32x4x3_spec, put_s32x4x3_spec] at h
  have h := vals_of_lines (f := fun j i => ((v.reg j).lane i).toInt) (g := fun j i => ((w.reg j).lane i).toInt) (ok_append h)
  exact VecArr.ext (funext fun j => Vec.ext (funext fun i => BitVec.eq_of_toInt_eq (congrFun (congrFun h j) i)))

/-- Printing `int32x4x4_t`: the registers in order, one per line. -/
theorem put_s32x4x4_spec (os : Stream) (v : int32x4x4_t) :
    put_s32x4x4 os v = .ok (os ++ lines (List.ofFn fun j : Fin 4 => commas (List.ofFn fun i : Fin 4 => text ((v.reg j).lane i).toInt))) := by
  simp only [put_s32x4x4, put_s32x4_spec, ok_bind, Stream.endl]
  exact congrArg C.ok (lines4 os fun j : Fin 4 => commas (List.ofFn fun i : Fin 4 => text ((v.reg j).lane i).toInt))

/-- The text determines the `int32x4x4_t`. -/
theorem put_s32x4x4_injective (os : Stream) (v w : int32x4x4_t) (h : put_s32x4x4 os v = put_s32x4x4 os w) : v = w := by
  rw [put_s32x4x4_spec, put_s32x4x4_spec] at h
  have h := vals_of_lines (f := fun j i => ((v.reg j).lane i).toInt) (g := fun j i => ((w.reg j).lane i).toInt) (ok_append h)
  exact VecArr.ext (funext fun j => Vec.ext (funext fun i => BitVec.eq_of_toInt_eq (congrFun (congrFun h j) i)))

/-- Printing `float32x2x2_t`: the registers in order, one per line. -/
theorem put_f32x2x2_spec (os : Stream) (v : float32x2x2_t) :
    put_f32x2x2 os v = .ok (os ++ lines (List.ofFn fun j : Fin 2 => commas (List.ofFn fun i : Fin 2 => FloatText.f32 ((v.reg j).lane i)))) := by
  simp only [put_f32x2x2, put_f32x2_spec, ok_bind, Stream.endl]
  exact congrArg C.ok (lines2 os fun j : Fin 2 => commas (List.ofFn fun i : Fin 2 => FloatText.f32 ((v.reg j).lane i)))

/-- Printing `float32x2x3_t`: the registers in order, one per line. -/
theorem put_f32x2x3_spec (os : Stream) (v : float32x2x3_t) :
    put_f32x2x3 os v = .ok (os ++ lines (List.ofFn fun j : Fin 3 => commas (List.ofFn fun i : Fin 2 => FloatText.f32 ((v.reg j).lane i)))) := by
  simp only [put_f32x2x3, put_f32x2_spec, ok_bind, Stream.endl]
  exact congrArg C.ok (lines3 os fun j : Fin 3 => commas (List.ofFn fun i : Fin 2 => FloatText.f32 ((v.reg j).lane i)))

/-- Printing `float32x2x4_t`: the registers in order, one per line. -/
theorem put_f32x2x4_spec (os : Stream) (v : float32x2x4_t) :
    put_f32x2x4 os v = .ok (os ++ lines (List.ofFn fun j : Fin 4 => commas (List.ofFn fun i : Fin 2 => FloatText.f32 ((v.reg j).lane i)))) := by
  simp only [put_f32x2x4, put_f32x2_spec, ok_bind, Stream.endl]
  exact congrArg C.ok (lines4 os fun j : Fin 4 => commas (List.ofFn fun i : Fin 2 => FloatText.f32 ((v.reg j).lane i)))

/-- Printing `float32x4x2_t`: the registers in order, one per line. -/
theorem put_f32x4x2_spec (os : Stream) (v : float32x4x2_t) :
    put_f32x4x2 os v = .ok (os ++ lines (List.ofFn fun j : Fin 2 => commas (List.ofFn fun i : Fin 4 => FloatText.f32 ((v.reg j).lane i)))) := by
  simp only [put_f32x4x2, put_f32x4_spec, ok_bind, Stream.endl]
  exact congrArg C.ok (lines2 os fun j : Fin 2 => commas (List.ofFn fun i : Fin 4 => FloatText.f32 ((v.reg j).lane i)))

/-- Printing `float32x4x3_t`: the registers in order, one per line. -/
theorem put_f32x4x3_spec (os : Stream) (v : float32x4x3_t) :
    put_f32x4x3 os v = .ok (os ++ lines (List.ofFn fun j : Fin 3 => commas (List.ofFn fun i : Fin 4 => FloatText.f32 ((v.reg j).lane i)))) := by
  simp only [put_f32x4x3, put_f32x4_spec, ok_bind, Stream.endl]
  exact congrArg C.ok (lines3 os fun j : Fin 3 => commas (List.ofFn fun i : Fin 4 => FloatText.f32 ((v.reg j).lane i)))

/-- Printing `float32x4x4_t`: the registers in order, one per line. -/
theorem put_f32x4x4_spec (os : Stream) (v : float32x4x4_t) :
    put_f32x4x4 os v = .ok (os ++ lines (List.ofFn fun j : Fin 4 => commas (List.ofFn fun i : Fin 4 => FloatText.f32 ((v.reg j).lane i)))) := by
  simp only [put_f32x4x4, put_f32x4_spec, ok_bind, Stream.endl]
  exact congrArg C.ok (lines4 os fun j : Fin 4 => commas (List.ofFn fun i : Fin 4 => FloatText.f32 ((v.reg j).lane i)))

/-- Printing `uint64x1x2_t`: the registers in order, one per line. -/
theorem put_u64x1x2_spec (os : Stream) (v : uint64x1x2_t) :
    put_u64x1x2 os v = .ok (os ++ lines (List.ofFn fun j : Fin 2 => commas (List.ofFn fun i : Fin 1 => text (((v.reg j).lane i).toNat : Int)))) := by
  simp only [put_u64x1x2, put_u64x1_spec, ok_bind, Stream.endl]
  exact congrArg C.ok (lines2 os fun j : Fin 2 => commas (List.ofFn fun i : Fin 1 => text (((v.reg j).lane i).toNat : Int)))

/-- The text determines the `uint64x1x2_t`. -/
theorem put_u64x1x2_injective (os : Stream) (v w : uint64x1x2_t) (h : put_u64x1x2 os v = put_u64x1x2 os w) : v = w := by
  rw [put_u64x1x2_spec, put_u64x1x2_spec] at h
  have h := vals_of_lines (f := fun j i => ((((v.reg j).lane i).toNat : Nat) : Int)) (g := fun j i => ((((w.reg j).lane i).toNat : Nat) : Int)) (ok_append h)
  exact VecArr.ext (funext fun j => Vec.ext (funext fun i => BitVec.eq_of_toNat_eq (Int.ofNat.inj (congrFun (congrFun h j) i))))

/-- Printing `uint64x1x3_t`: the registers in order, one per line. -/
theorem put_u64x1x3_spec (os : Stream) (v : uint64x1x3_t) :
    put_u64x1x3 os v = .ok (os ++ lines (List.ofFn fun j : Fin 3 => commas (List.ofFn fun i : Fin 1 => text (((v.reg j).lane i).toNat : Int)))) := by
  simp only [put_u64x1x3, put_u64x1_spec, ok_bind, Stream.endl]
  exact congrArg C.ok (lines3 os fun j : Fin 3 => commas (List.ofFn fun i : Fin 1 => text (((v.reg j).lane i).toNat : Int)))

/-- The text determines the `uint64x1x3_t`. -/
theorem put_u64x1x3_injective (os : Stream) (v w : uint64x1x3_t) (h : put_u64x1x3 os v = put_u64x1x3 os w) : v = w := by
  rw [put_u64x1x3_spec, put_u64x1x3_spec] at h
  have h := vals_of_lines (f := fun j i => ((((v.reg j).lane i).toNat : Nat) : Int)) (g := fun j i => ((((w.reg j).lane i).toNat : Nat) : Int)) (ok_append h)
  exact VecArr.ext (funext fun j => Vec.ext (funext fun i => BitVec.eq_of_toNat_eq (Int.ofNat.inj (congrFun (congrFun h j) i))))

/-- Printing `uint64x1x4_t`: the registers in order, one per line. -/
theorem put_u64x1x4_spec (os : Stream) (v : uint64x1x4_t) :
    put_u64x1x4 os v = .ok (os ++ lines (List.ofFn fun j : Fin 4 => commas (List.ofFn fun i : Fin 1 => text (((v.reg j).lane i).toNat : Int)))) := by
  simp only [put_u64x1x4, put_u64x1_spec, ok_bind, Stream.endl]
  exact congrArg C.ok (lines4 os fun j : Fin 4 => commas (List.ofFn fun i : Fin 1 => text (((v.reg j).lane i).toNat : Int)))

/-- The text determines the `uint64x1x4_t`. -/
theorem put_u64x1x4_injective (os : Stream) (v w : uint64x1x4_t) (h : put_u64x1x4 os v = put_u64x1x4 os w) : v = w := by
  rw [put_u64x1x4_spec, put_u64x1x4_spec] at h
  have h := vals_of_lines (f := fun j i => ((((v.reg j).lane i).toNat : Nat) : Int)) (g := fun j i => ((((w.reg j).lane i).toNat : Nat) : Int)) (ok_append h)
  exact VecArr.ext (funext fun j => Vec.ext (funext fun i => BitVec.eq_of_toNat_eq (Int.ofNat.inj (congrFun (congrFun h j) i))))

/-- Printing `uint64x2x2_t`: the registers in order, one per line. -/
theorem put_u64x2x2_spec (os : Stream) (v : uint64x2x2_t) :
    put_u64x2x2 os v = .ok (os ++ lines (List.ofFn fun j : Fin 2 => commas (List.ofFn fun i : Fin 2 => text (((v.reg j).lane i).toNat : Int)))) := by
  simp only [put_u64x2x2, put_u64x2_spec, ok_bind, Stream.endl]
  exact congrArg C.ok (lines2 os fun j : Fin 2 => commas (List.ofFn fun i : Fin 2 => text (((v.reg j).lane i).toNat : Int)))

/-- The text determines the `uint64x2x2_t`. -/
theorem put_u64x2x2_injective (os : Stream) (v w : uint64x2x2_t) (h : put_u64x2x2 os v = put_u64x2x2 os w) : v = w := by
  rw [put_u64x2x2_spec, put_u64x2x2_spec] at h
  have h := vals_of_lines (f := fun j i => ((((v.reg j).lane i).toNat : Nat) : Int)) (g := fun j i => ((((w.reg j).lane i).toNat : Nat) : Int)) (ok_append h)
  exact VecArr.ext (funext fun j => Vec.ext (funext fun i => BitVec.eq_of_toNat_eq (Int.ofNat.inj (congrFun (congrFun h j) i))))

/-- Printing `uint64x2x3_t`: the registers in order, one per line. -/
theorem put_u64x2x3_spec (os : Stream) (v : uint64x2x3_t) :
    put_u64x2x3 os v = .ok (os ++ lines (List.ofFn fun j : Fin 3 => commas (List.ofFn fun i : Fin 2 => text (((v.reg j).lane i).toNat : Int)))) := by
  simp only [put_u64x2x3, put_u64x2_spec, ok_bind, Stream.endl]
  exact congrArg C.ok (lines3 os fun j : Fin 3 => commas (List.ofFn fun i : Fin 2 => text (((v.reg j).lane i).toNat : Int)))

/-- The text determines the `uint64x2x3_t`. -/
theorem put_u64x2x3_injective (os : Stream) (v w : uint64x2x3_t) (h : put_u64x2x3 os v = put_u64x2x3 os w) : v = w := by
  rw [put_u64x2x3_spec, put_u64x2x3_spec] at h
  have h := vals_of_lines (f := fun j i => ((((v.reg j).lane i).toNat : Nat) : Int)) (g := fun j i => ((((w.reg j).lane i).toNat : Nat) : Int)) (ok_append h)
  exact VecArr.ext (funext fun j => Vec.ext (funext fun i => BitVec.eq_of_toNat_eq (Int.ofNat.inj (congrFun (congrFun h j) i))))

/-- Printing `uint64x2x4_t`: the registers in order, one per line. -/
theorem put_u64x2x4_spec (os : Stream) (v : uint64x2x4_t) :
    put_u64x2x4 os v = .ok (os ++ lines (List.ofFn fun j : Fin 4 => commas (List.ofFn fun i : Fin 2 => text (((v.reg j).lane i).toNat : Int)))) := by
  simp only [put_u64x2x4, put_u64x2_spec, ok_bind, Stream.endl]
  exact congrArg C.ok (lines4 os fun j : Fin 4 => commas (List.ofFn fun i : Fin 2 => text (((v.reg j).lane i).toNat : Int)))

/-- The text determines the `uint64x2x4_t`. -/
theorem put_u64x2x4_injective (os : Stream) (v w : uint64x2x4_t) (h : put_u64x2x4 os v = put_u64x2x4 os w) : v = w := by
  rw [put_u64x2x4_spec, put_u64x2x4_spec] at h
  have h := vals_of_lines (f := fun j i => ((((v.reg j).lane i).toNat : Nat) : Int)) (g := fun j i => ((((w.reg j).lane i).toNat : Nat) : Int)) (ok_append h)
  exact VecArr.ext (funext fun j => Vec.ext (funext fun i => BitVec.eq_of_toNat_eq (Int.ofNat.inj (congrFun (congrFun h j) i))))

/-- Printing `int64x1x2_t`: the registers in order, one per line. -/
theorem put_s64x1x2_spec (os : Stream) (v : int64x1x2_t) :
    put_s64x1x2 os v = .ok (os ++ lines (List.ofFn fun j : Fin 2 => commas (List.ofFn fun i : Fin 1 => text ((v.reg j).lane i).toInt))) := by
  simp only [put_s64x1x2, put_s64x1_spec, ok_bind, Stream.endl]
  exact congrArg C.ok (lines2 os fun j : Fin 2 => commas (List.ofFn fun i : Fin 1 => text ((v.reg j).lane i).toInt))

/-- The text determines the `int64x1x2_t`. -/
theorem put_s64x1x2_injective (os : Stream) (v w : int64x1x2_t) (h : put_s64x1x2 os v = put_s64x1x2 os w) : v = w := by
  rw [put_s64x1x2_spec, put_s64x1x2_spec] at h
  have h := vals_of_lines (f := fun j i => ((v.reg j).lane i).toInt) (g := fun j i => ((w.reg j).lane i).toInt) (ok_append h)
  exact VecArr.ext (funext fun j => Vec.ext (funext fun i => BitVec.eq_of_toInt_eq (congrFun (congrFun h j) i)))

/-- Printing `int64x1x3_t`: the registers in order, one per line. -/
theorem put_s64x1x3_spec (os : Stream) (v : int64x1x3_t) :
    put_s64x1x3 os v = .ok (os ++ lines (List.ofFn fun j : Fin 3 => commas (List.ofFn fun i : Fin 1 => text ((v.reg j).lane i).toInt))) := by
  simp only [put_s64x1x3, put_s64x1_spec, ok_bind, Stream.endl]
  exact congrArg C.ok (lines3 os fun j : Fin 3 => commas (List.ofFn fun i : Fin 1 => text ((v.reg j).lane i).toInt))

/-- The text determines the `int64x1x3_t`. -/
theorem put_s64x1x3_injective (os : Stream) (v w : int64x1x3_t) (h : put_s64x1x3 os v = put_s64x1x3 os w) : v = w := by
  rw [put_s64x1x3_spec, put_s64x1x3_spec] at h
  have h := vals_of_lines (f := fun j i => ((v.reg j).lane i).toInt) (g := fun j i => ((w.reg j).lane i).toInt) (ok_append h)
  exact VecArr.ext (funext fun j => Vec.ext (funext fun i => BitVec.eq_of_toInt_eq (congrFun (congrFun h j) i)))

/-- Printing `int64x1x4_t`: the registers in order, one per line. -/
theorem put_s64x1x4_spec (os : Stream) (v : int64x1x4_t) :
    put_s64x1x4 os v = .ok (os ++ lines (List.ofFn fun j : Fin 4 => commas (List.ofFn fun i : Fin 1 => text ((v.reg j).lane i).toInt))) := by
  simp only [put_s64x1x4, put_s64x1_spec, ok_bind, Stream.endl]
  exact congrArg C.ok (lines4 os fun j : Fin 4 => commas (List.ofFn fun i : Fin 1 => text ((v.reg j).lane i).toInt))

/-- The text determines the `int64x1x4_t`. -/
theorem put_s64x1x4_injective (os : Stream) (v w : int64x1x4_t) (h : put_s64x1x4 os v = put_s64x1x4 os w) : v = w := by
  rw [put_s64x1x4_spec, put_s64x1x4_spec] at h
  have h := vals_of_lines (f := fun j i => ((v.reg j).lane i).toInt) (g := fun j i => ((w.reg j).lane i).toInt) (ok_append h)
  exact VecArr.ext (funext fun j => Vec.ext (funext fun i => BitVec.eq_of_toInt_eq (congrFun (congrFun h j) i)))

/-- Printing `int64x2x2_t`: the registers in order, one per line. -/
theorem put_s64x2x2_spec (os : Stream) (v : int64x2x2_t) :
    put_s64x2x2 os v = .ok (os ++ lines (List.ofFn fun j : Fin 2 => commas (List.ofFn fun i : Fin 2 => text ((v.reg j).lane i).toInt))) := by
  simp only [put_s64x2x2, put_s64x2_spec, ok_bind, Stream.endl]
  exact congrArg C.ok (lines2 os fun j : Fin 2 => commas (List.ofFn fun i : Fin 2 => text ((v.reg j).lane i).toInt))

/-- The text determines the `int64x2x2_t`. -/
theorem put_s64x2x2_injective (os : Stream) (v w : int64x2x2_t) (h : put_s64x2x2 os v = put_s64x2x2 os w) : v = w := by
  rw [put_s64x2x2_spec, put_s64x2x2_spec] at h
  have h := vals_of_lines (f := fun j i => ((v.reg j).lane i).toInt) (g := fun j i => ((w.reg j).lane i).toInt) (ok_append h)
  exact VecArr.ext (funext fun j => Vec.ext (funext fun i => BitVec.eq_of_toInt_eq (congrFun (congrFun h j) i)))

/-- Printing `int64x2x3_t`: the registers in order, one per line. -/
theorem put_s64x2x3_spec (os : Stream) (v : int64x2x3_t) :
    put_s64x2x3 os v = .ok (os ++ lines (List.ofFn fun j : Fin 3 => commas (List.ofFn fun i : Fin 2 => text ((v.reg j).lane i).toInt))) := by
  simp only [put_s64x2x3, put_s64x2_spec, ok_bind, Stream.endl]
  exact congrArg C.ok (lines3 os fun j : Fin 3 => commas (List.ofFn fun i : Fin 2 => text ((v.reg j).lane i).toInt))

/-- The text determines the `int64x2x3_t`. -/
theorem put_s64x2x3_injective (os : Stream) (v w : int64x2x3_t) (h : put_s64x2x3 os v = put_s64x2x3 os w) : v = w := by
  rw [put_s64x2x3_spec, put_s64x2x3_spec] at h
  have h := vals_of_lines (f := fun j i => ((v.reg j).lane i).toInt) (g := fun j i => ((w.reg j).lane i).toInt) (ok_append h)
  exact VecArr.ext (funext fun j => Vec.ext (funext fun i => BitVec.eq_of_toInt_eq (congrFun (congrFun h j) i)))

/-- Printing `int64x2x4_t`: the registers in order, one per line. -/
theorem put_s64x2x4_spec (os : Stream) (v : int64x2x4_t) :
    put_s64x2x4 os v = .ok (os ++ lines (List.ofFn fun j : Fin 4 => commas (List.ofFn fun i : Fin 2 => text ((v.reg j).lane i).toInt))) := by
  simp only [put_s64x2x4, put_s64x2_spec, ok_bind, Stream.endl]
  exact congrArg C.ok (lines4 os fun j : Fin 4 => commas (List.ofFn fun i : Fin 2 => text ((v.reg j).lane i).toInt))

/-- The text determines the `int64x2x4_t`. -/
theorem put_s64x2x4_injective (os : Stream) (v w : int64x2x4_t) (h : put_s64x2x4 os v = put_s64x2x4 os w) : v = w := by
  rw [put_s64x2x4_spec, put_s64x2x4_spec] at h
  have h := vals_of_lines (f := fun j i => ((v.reg j).lane i).toInt) (g := fun j i => ((w.reg j).lane i).toInt) (ok_append h)
  exact VecArr.ext (funext fun j => Vec.ext (funext fun i => BitVec.eq_of_toInt_eq (congrFun (congrFun h j) i)))

/-- Printing `float64x1x2_t`: the registers in order, one per line. -/
theorem put_f64x1x2_spec (os : Stream) (v : float64x1x2_t) :
    put_f64x1x2 os v = .ok (os ++ lines (List.ofFn fun j : Fin 2 => commas (List.ofFn fun i : Fin 1 => FloatText.f64 ((v.reg j).lane i)))) := by
  simp only [put_f64x1x2, put_f64x1_spec, ok_bind, Stream.endl]
  exact congrArg C.ok (lines2 os fun j : Fin 2 => commas (List.ofFn fun i : Fin 1 => FloatText.f64 ((v.reg j).lane i)))

/-- Printing `float64x1x3_t`: the registers in order, one per line. -/
theorem put_f64x1x3_spec (os : Stream) (v : float64x1x3_t) :
    put_f64x1x3 os v = .ok (os ++ lines (List.ofFn fun j : Fin 3 => commas (List.ofFn fun i : Fin 1 => FloatText.f64 ((v.reg j).lane i)))) := by
  simp only [put_f64x1x3, put_f64x1_spec, ok_bind, Stream.endl]
  exact congrArg C.ok (lines3 os fun j : Fin 3 => commas (List.ofFn fun i : Fin 1 => FloatText.f64 ((v.reg j).lane i)))

/-- Printing `float64x1x4_t`: the registers in order, one per line. -/
theorem put_f64x1x4_spec (os : Stream) (v : float64x1x4_t) :
    put_f64x1x4 os v = .ok (os ++ lines (List.ofFn fun j : Fin 4 => commas (List.ofFn fun i : Fin 1 => FloatText.f64 ((v.reg j).lane i)))) := by
  simp only [put_f64x1x4, put_f64x1_spec, ok_bind, Stream.endl]
  exact congrArg C.ok (lines4 os fun j : Fin 4 => commas (List.ofFn fun i : Fin 1 => FloatText.f64 ((v.reg j).lane i)))

/-- Printing `float64x2x2_t`: the registers in order, one per line. -/
theorem put_f64x2x2_spec (os : Stream) (v : float64x2x2_t) :
    put_f64x2x2 os v = .ok (os ++ lines (List.ofFn fun j : Fin 2 => commas (List.ofFn fun i : Fin 2 => FloatText.f64 ((v.reg j).lane i)))) := by
  simp only [put_f64x2x2, put_f64x2_spec, ok_bind, Stream.endl]
  exact congrArg C.ok (lines2 os fun j : Fin 2 => commas (List.ofFn fun i : Fin 2 => FloatText.f64 ((v.reg j).lane i)))

/-- Printing `float64x2x3_t`: the registers in order, one per line. -/
theorem put_f64x2x3_spec (os : Stream) (v : float64x2x3_t) :
    put_f64x2x3 os v = .ok (os ++ lines (List.ofFn fun j : Fin 3 => commas (List.ofFn fun i : Fin 2 => FloatText.f64 ((v.reg j).lane i)))) := by
  simp only [put_f64x2x3, put_f64x2_spec, ok_bind, Stream.endl]
  exact congrArg C.ok (lines3 os fun j : Fin 3 => commas (List.ofFn fun i : Fin 2 => FloatText.f64 ((v.reg j).lane i)))

/-- Printing `float64x2x4_t`: the registers in order, one per line. -/
theorem put_f64x2x4_spec (os : Stream) (v : float64x2x4_t) :
    put_f64x2x4 os v = .ok (os ++ lines (List.ofFn fun j : Fin 4 => commas (List.ofFn fun i : Fin 2 => FloatText.f64 ((v.reg j).lane i)))) := by
  simp only [put_f64x2x4, put_f64x2_spec, ok_bind, Stream.endl]
  exact congrArg C.ok (lines4 os fun j : Fin 4 => commas (List.ofFn fun i : Fin 2 => FloatText.f64 ((v.reg j).lane i)))

/-! ## Cases -/

/-- A use of the printers where floats are not looked at. -/
@[reducible] def noFloats : FloatText := ⟨fun _ => [], fun _ => []⟩

example : @put_s8x8 noFloats "v: ".toList ⟨fun i => BitVec.ofInt 8 (i.val * 40 - 128)⟩ =
    .ok "v: -128, -88, -48, -8, 32, 72, 112, -104".toList := by decide +kernel
example : @put_u64x2x2 noFloats [] ⟨fun j => ⟨fun i => BitVec.ofInt 64 (j.val - i.val)⟩⟩ =
    .ok "0, 18446744073709551615\n1, 0".toList := by decide +kernel
/-- Why the code casts bytes to `int`: without the cast a byte is written as a character. -/
example : @Stream.put noFloats [] (.int .u8 65) = "A".toList ∧
    @put_u8x8 noFloats [] ⟨fun _ => 65⟩ = .ok "65, 65, 65, 65, 65, 65, 65, 65".toList := by decide +kernel

end Verif.Props
