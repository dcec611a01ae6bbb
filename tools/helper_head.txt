/-
C82: what the stream operators of the project's tests write, and that the text of integer registers determines them.
Generated by `tools/gen_helper.py`.
-/
import Verif.Model.Helper
import Verif.Lemmas
import Verif.Tables

namespace Verif.Props
open Verif.Model

/-! ## Specification -/

/-- Words separated by a comma and a blank. -/
def commas (ws : List (List Char)) : List Char := List.intercalate [',', ' '] ws

/-- Lines separated by a line break; there is none after the last one. -/
def lines (ls : List (List Char)) : List Char := List.intercalate ['\n'] ls

/-- The usual decimal text of an integer. -/
def text (v : Int) : List Char := (toString v).toList

example : commas [text 1, text (-20), text 300] = "1, -20, 300".toList := by decide +kernel
example : lines ["1, 2".toList, "3".toList] = "1, 2\n3".toList := by decide +kernel

theorem decimal_eq_text (v : Int) : decimal v = text v := by
  unfold decimal text
  cases v with
  | ofNat m =>
    rw [if_neg (by simp)]
    show Nat.toDigits 10 m = (Nat.repr m).toList
    simp [Nat.repr]
  | negSucc m =>
    rw [if_pos (by omega)]
    show '-' :: Nat.toDigits 10 (m + 1) = ("-" ++ Nat.repr (m + 1)).toList
    simp [Nat.repr]

/-! ## The loop -/

theorem intercalate_snoc (sep : List Char) (a b : List Char) (l : List (List Char)) :
    List.intercalate sep ((a :: l) ++ [b]) = List.intercalate sep (a :: l) ++ sep ++ b := by
  induction l generalizing a with
  | nil => simp [List.intercalate, List.intersperse]
  | cons c l ih =>
    have := ih c
    simp only [List.intercalate, List.intersperse, List.cons_append, List.flatten_cons] at this ⊢
    rw [this]; simp

theorem commas_snoc (l : List (List Char)) (b : List Char) :
    commas (l ++ [b]) = (if 0 < l.length then commas l ++ [',', ' '] else commas l) ++ b := by
  cases l with
  | nil => simp [commas]
  | cons a l =>
    rw [if_pos (by simp)]
    exact intercalate_snoc _ a b l

theorem cfor_join {n : Nat} {hi : Int} {os : Stream} {body : Int → Stream → C Stream} (hh : hi = n) (f : Fin n → List Char)
    (h : ∀ (i : Fin n) (os : Stream), body (i.val : Int) os =
      .ok ((if (i.val : Int) > 0 then os ++ [',', ' '] else os) ++ f i)) :
    cfor 0 hi 1 os body = .ok (os ++ commas (List.ofFn f)) := by
  subst hh
  have key : cfor 0 (n : Int) 1 os body = .ok (os ++ commas ((List.ofFn f).take n)) := by
    refine cfor_inv n (fun k => os ++ commas ((List.ofFn f).take k)) (by simp) (by simp [commas]) ?_
    intro k hk
    rw [show (0 : Int) + k * 1 = ((⟨k, hk⟩ : Fin n).val : Int) by simp, h ⟨k, hk⟩]
    have ht : (List.ofFn f).take (k + 1) = (List.ofFn f).take k ++ [f ⟨k, hk⟩] := by
      rw [List.take_succ_eq_append_getElem (by simpa using hk)]; simp
    rw [ht, commas_snoc]
    have hl : ((List.ofFn f).take k).length = k := by simp; omega
    rw [hl]
    by_cases hk0 : 0 < k
    · rw [if_pos (by simpa using hk0), if_pos hk0]; simp
    · rw [if_neg (by simpa using hk0), if_neg hk0]; simp
  rw [key, List.take_of_length_le (by simp)]

/-! ## Reading the text back -/

theorem append_sep {c : Char} {a b x y : List Char} (ha : c ∉ a) (hb : c ∉ b) (h : a ++ c :: x = b ++ c :: y) : a = b ∧ x = y := by
  induction a generalizing b with
  | nil =>
    cases b with
    | nil => simpa using h
    | cons d b => simp at h hb; exact absurd h.1 hb.1
  | cons d a ih =>
    cases b with
    | nil => simp at h ha; exact absurd h.1.symm ha.1
    | cons e b =>
      simp only [List.cons_append, List.cons.injEq] at h
      obtain ⟨rfl, h⟩ := h
      have := ih (b := b) (fun m => ha (List.mem_cons_of_mem _ m)) (fun m => hb (List.mem_cons_of_mem _ m)) h
      exact ⟨by rw [this.1], this.2⟩

/-- Words without the first character of the separator can be read back. -/
theorem intercalate_injective (c : Char) (cs : List Char) (l m : List (List Char)) (hlen : l.length = m.length)
    (hl : ∀ w ∈ l, c ∉ w) (hm : ∀ w ∈ m, c ∉ w) (h : List.intercalate (c :: cs) l = List.intercalate (c :: cs) m) : l = m := by
  induction l generalizing m with
  | nil => cases m with
    | nil => rfl
    | cons _ _ => simp at hlen
  | cons a l ih =>
    cases m with
    | nil => simp at hlen
    | cons b m =>
      cases l with
      | nil =>
        cases m with
        | nil => simpa [List.intercalate, List.intersperse] using h
        | cons _ _ => simp at hlen
      | cons a' l =>
        cases m with
        | nil => simp at hlen
        | cons b' m =>
          have h' : a ++ c :: (cs ++ List.intercalate (c :: cs) (a' :: l)) = b ++ c :: (cs ++ List.intercalate (c :: cs) (b' :: m)) := by
            simpa [List.intercalate, List.intersperse] using h
          obtain ⟨hab, ht⟩ := append_sep (hl a (by simp)) (hm b (by simp)) h'
          have := ih (b' :: m) (by simpa using hlen) (fun w hw => hl w (List.mem_cons_of_mem _ hw))
            (fun w hw => hm w (List.mem_cons_of_mem _ hw)) (List.append_cancel_left ht)
          rw [hab, this]

theorem mem_decimal {c : Char} {v : Int} (h : c ∈ decimal v) : c = '-' ∨ c.isDigit := by
  unfold decimal at h
  split at h
  · rcases List.mem_cons.1 h with h | h
    · exact .inl h
    · exact .inr (Nat.isDigit_of_mem_toDigits (by decide) (by decide) h)
  · exact .inr (Nat.isDigit_of_mem_toDigits (by decide) (by decide) h)

theorem decimal_injective {v w : Int} (h : decimal v = decimal w) : v = w := by
  have inj : ∀ a b : Nat, Nat.toDigits 10 a = Nat.toDigits 10 b → a = b := fun a b h => by
    have := congrArg (fun l => Nat.ofDigitChars 10 l 0) h
    simpa [Nat.ofDigitChars_ten_toDigits] using this
  have noM : ∀ (a : Nat) l, Nat.toDigits 10 a ≠ '-' :: l := fun a l h => by
    have : ('-' : Char).isDigit := Nat.isDigit_of_mem_toDigits (b := 10) (n := a) (by decide) (by decide) (by rw [h]; simp)
    exact absurd this (by decide)
  unfold decimal at h
  split at h <;> split at h
  · have := inj _ _ (List.cons.inj h).2; omega
  · exact absurd h.symm (noM _ _)
  · exact absurd h (noM _ _)
  · have := inj _ _ h; omega

theorem text_injective {v w : Int} (h : text v = text w) : v = w :=
  decimal_injective (by rw [decimal_eq_text, decimal_eq_text, h])

theorem mem_text {c : Char} {v : Int} (h : c ∈ text v) : c = '-' ∨ c.isDigit := mem_decimal (by rwa [decimal_eq_text])

theorem mem_commas {c : Char} {ws : List (List Char)} (h : c ∈ commas ws) : c = ',' ∨ c = ' ' ∨ ∃ w ∈ ws, c ∈ w := by
  induction ws with
  | nil => simp [commas, List.intercalate] at h
  | cons a l ih =>
    cases l with
    | nil => exact .inr (.inr ⟨a, by simp, by simpa [commas, List.intercalate, List.intersperse] using h⟩)
    | cons b l =>
      have h' : c ∈ a ++ ',' :: ' ' :: commas (b :: l) := by
        simpa [commas, List.intercalate, List.intersperse] using h
      simp only [List.mem_append, List.mem_cons] at h'
      rcases h' with h' | h' | h' | h'
      · exact .inr (.inr ⟨a, by simp, h'⟩)
      · exact .inl h'
      · exact .inr (.inl h')
      · rcases ih h' with h | h | ⟨w, hw, hc⟩
        · exact .inl h
        · exact .inr (.inl h)
        · exact .inr (.inr ⟨w, List.mem_cons_of_mem _ hw, hc⟩)

theorem ofFn_inj {α : Type} {n : Nat} {f g : Fin n → α} (h : List.ofFn f = List.ofFn g) (i : Fin n) : f i = g i := by
  have := congrArg (fun l => l[i.val]?) h
  simpa using this

theorem vals_of_commas {n : Nat} {f g : Fin n → Int} (h : commas (List.ofFn fun i => text (f i)) = commas (List.ofFn fun i => text (g i))) :
    f = g := by
  have noC : ∀ v : Int, ',' ∉ text v := fun v h => by
    rcases mem_text h with h | h <;> exact absurd h (by decide)
  have := intercalate_injective ',' [' '] _ _ (by simp) (by
    intro w hw; obtain ⟨i, rfl⟩ := List.mem_ofFn.1 hw; exact noC _) (by
    intro w hw; obtain ⟨i, rfl⟩ := List.mem_ofFn.1 hw; exact noC _) h
  funext i
  exact text_injective (ofFn_inj this i)

theorem vals_of_lines {n k : Nat} {f g : Fin k → Fin n → Int}
    (h : lines (List.ofFn fun j => commas (List.ofFn fun i => text (f j i))) = lines (List.ofFn fun j => commas (List.ofFn fun i => text (g j i)))) :
    f = g := by
  have noC : ∀ f : Fin n → Int, '\n' ∉ commas (List.ofFn fun i => text (f i)) := fun f h => by
    rcases mem_commas h with h | h | ⟨w, hw, hc⟩
    · exact absurd h (by decide)
    · exact absurd h (by decide)
    · obtain ⟨i, rfl⟩ := List.mem_ofFn.1 hw
      rcases mem_text hc with h | h <;> exact absurd h (by decide)
  have := intercalate_injective '\n' [] _ _ (by simp) (by
    intro w hw; obtain ⟨i, rfl⟩ := List.mem_ofFn.1 hw; exact noC _) (by
    intro w hw; obtain ⟨i, rfl⟩ := List.mem_ofFn.1 hw; exact noC _) h
  funext j
  exact vals_of_commas (ofFn_inj this j)

theorem lines2 (os : Stream) (f : Fin 2 → List Char) : os ++ f 0 ++ ['\n'] ++ f 1 = os ++ lines (List.ofFn f) := by
  simp [lines, List.intercalate, List.intersperse, List.ofFn_succ]
theorem lines3 (os : Stream) (f : Fin 3 → List Char) : os ++ f 0 ++ ['\n'] ++ f 1 ++ ['\n'] ++ f 2 = os ++ lines (List.ofFn f) := by
  simp [lines, List.intercalate, List.intersperse, List.ofFn_succ]
theorem lines4 (os : Stream) (f : Fin 4 → List Char) :
    os ++ f 0 ++ ['\n'] ++ f 1 ++ ['\n'] ++ f 2 ++ ['\n'] ++ f 3 = os ++ lines (List.ofFn f) := by
  simp [lines, List.intercalate, List.intersperse, List.ofFn_succ]

theorem ok_append {os x y : Stream} (h : C.ok (os ++ x) = C.ok (os ++ y)) : x = y :=
  List.append_cancel_left (C.ok.inj h)

/-! ## The printers -/

variable [FloatText]

