/-
C09, C74 for every history of stores, with what the defective stores really write.
-/
import Verif.Props.History

namespace Verif.Props
open Verif.Model Verif.Spec

/-! ## Every history, the defective stores with what they really write -/

namespace StoreCall

/-- How many elements from the pointer on must lie in the buffer.  `vst4_u8` needs one more than its block, `vst4_u32` one less. -/
def need : {e : Elem} → StoreCall e → Nat
  | _, .vst4_u8 _ => 33
  | _, .vst4_u32 _ => 7
  | _, c => c.size

/-- What the call writes to the element `t` places after the pointer, if it writes there.  `vst4_u8` does not write the places
of register 3 but writes its last lane after the block; `vst4_u32` writes register 3 to the places of register 2 and leaves
out the places of register 3. -/
def written : {e : Elem} → StoreCall e → Nat → Option (BitVec e.bits)
  | _, .vst4_u8 val, t =>
    if t = 32 then some ((val.reg 3).lane 7)
    else if h : t < 32 ∧ t % 4 ≠ 3 then some (interleave val ⟨t, h.1⟩) else none
  | _, .vst4_u32 val, t =>
    if h : t < 8 ∧ t % 4 ≠ 3 then
      some (if t % 4 = 2 then (val.reg 3).lane ⟨t / 4, by omega⟩ else interleave val ⟨t, h.1⟩)
    else none
  | _, c, t => if h : t < c.size then some (c.block ⟨t, h⟩) else none

/-- The lane number, where there is one, is in range. -/
def LaneOk : {e : Elem} → StoreCall e → Prop
  | _, .vst4q_lane_f32 _ lane => 0 ≤ lane ∧ lane < 4
  | _, _ => True

end StoreCall

/-- One store call, whatever the call. -/
theorem exec_written {e : Elem} (c : StoreCall e) (p : Ptr e) :
    (c.LaneOk ∧ p.off + c.need ≤ p.buf.length → ∃ p', c.exec p = .ok p' ∧ p'.buf.length = p.buf.length ∧
      (∀ t x, c.written t = some x → p'.buf[p.off + t]? = some (some x)) ∧
      (∀ a, (∀ t, a = p.off + t → c.written t = none) → p'.buf[a]? = p.buf[a]?)) ∧
    (¬ (c.LaneOk ∧ p.off + c.need ≤ p.buf.length) → c.exec p = .ub .outOfBounds) := by
  have main : c.Sound → c.need = c.size → c.LaneOk → (∀ t, c.written t = if h : t < c.size then some (c.block ⟨t, h⟩) else none) →
      (c.LaneOk ∧ p.off + c.need ≤ p.buf.length → ∃ p', c.exec p = .ok p' ∧ p'.buf.length = p.buf.length ∧
        (∀ t x, c.written t = some x → p'.buf[p.off + t]? = some (some x)) ∧
        (∀ a, (∀ t, a = p.off + t → c.written t = none) → p'.buf[a]? = p.buf[a]?)) ∧
      (¬ (c.LaneOk ∧ p.off + c.need ≤ p.buf.length) → c.exec p = .ub .outOfBounds) := by
    intro hs hn hl hw
    have st := c.stores hs p
    rw [hn]
    refine ⟨fun h => ?_, fun h => st.2 fun hw => h ⟨hl, hw⟩⟩
    obtain ⟨q, h1, h2⟩ := st.1 h.2
    refine ⟨q, h1, h2.size, fun t x ht => ?_, fun a ha => ?_⟩
    · rw [hw] at ht
      split at ht
      · rename_i hlt
        rw [← Option.some.inj ht]
        exact h2.written ⟨t, hlt⟩
      · cases ht
    · refine h2.frame a ?_
      by_cases hlt : a < p.off
      · exact .inl hlt
      · refine .inr (Decidable.byContradiction fun hc => ?_)
        have := ha (a - p.off) (by omega)
        rw [hw, dif_pos (by omega)] at this
        cases this
  cases c with
  | vst4_u8 v =>
    obtain ⟨h1, h2⟩ := vst4_u8_partial p v
    refine ⟨fun h => ?_, fun h => h2 fun hw => h ⟨trivial, hw⟩⟩
    obtain ⟨p', e1, _, e2, e3, e4, e5, e6⟩ := h1 h.2
    refine ⟨p', e1, e2, fun t x ht => ?_, fun a ha => ?_⟩
    · simp only [StoreCall.written] at ht
      split at ht
      · subst t; rw [← Option.some.inj ht]; exact e5
      · split at ht
        · rename_i hlt
          rw [← Option.some.inj ht]
          have := e3 ⟨t % 4, by omega⟩ ⟨t / 4, by omega⟩ (by intro h; exact hlt.2 (congrArg Fin.val h))
          simp only at this
          rw [show p.off + (4 * (t / 4) + t % 4) = p.off + t by omega] at this
          exact this
        · cases ht
    · by_cases hlt : a < p.off ∨ p.off + 33 ≤ a
      · exact e6 a hlt
      · have := ha (a - p.off) (by omega)
        simp only [StoreCall.written] at this
        split at this
        · cases this
        · split at this
          · cases this
          · have := e4 ⟨(a - p.off) / 4, by omega⟩
            simp only at this
            rwa [show p.off + (4 * ((a - p.off) / 4) + 3) = a by omega] at this
  | vst4_u32 v =>
    obtain ⟨h1, h2⟩ := vst4_u32_partial p v
    refine ⟨fun h => ?_, fun h => h2 fun hw => h ⟨trivial, hw⟩⟩
    obtain ⟨p', e1, _, e2, e3, e4, e5, e6, e7⟩ := h1 h.2
    refine ⟨p', e1, e2, fun t x ht => ?_, fun a ha => ?_⟩
    · simp only [StoreCall.written] at ht
      split at ht
      · rename_i hlt
        rw [← Option.some.inj ht]
        split
        · have := e5 ⟨t / 4, by omega⟩
          simp only at this
          rwa [show p.off + (4 * (t / 4) + 2) = p.off + t by omega] at this
        · by_cases h0 : t % 4 = 0
          · have := e3 ⟨t / 4, by omega⟩
            simp only at this
            rw [show p.off + 4 * (t / 4) = p.off + t by omega] at this
            rw [this]
            exact congrArg (fun z => some (some z)) (reg_lane_eq v (by simp only [Fin.val_zero]; omega) (by simp only)).symm
          · have := e4 ⟨t / 4, by omega⟩
            simp only at this
            rw [show p.off + (4 * (t / 4) + 1) = p.off + t by omega] at this
            rw [this]
            exact congrArg (fun z => some (some z)) (reg_lane_eq v (by simp only [Fin.val_one]; omega) (by simp only)).symm
      · cases ht
    · by_cases hlt : a < p.off ∨ p.off + 8 ≤ a
      · exact e7 a hlt
      · have := ha (a - p.off) (by omega)
        simp only [StoreCall.written] at this
        split at this
        · cases this
        · have := e6 ⟨(a - p.off) / 4, by omega⟩
          simp only at this
          rwa [show p.off + (4 * ((a - p.off) / 4) + 3) = a by omega] at this
  | vst4q_lane_f32 val lane =>
    by_cases hl : 0 ≤ lane ∧ lane < 4
    · exact main hl rfl hl fun _ => rfl
    · exact ⟨fun h => absurd h.1 hl, fun _ => vst4q_lane_f32_oob p val lane hl⟩
  | _ => exact main trivial rfl trivial fun _ => rfl

/-- What the last call that writes element `a` wrote there, if any call does. -/
def lastWritten {e : Elem} (a : Nat) : List (Nat × StoreCall e) → Option (BitVec e.bits)
  | [] => none
  | (o, c) :: cs =>
    match lastWritten a cs with
    | some x => some x
    | none => if o ≤ a then c.written (a - o) else none

/-- Every sequence of store calls, of any length and at any offsets: it completes exactly when every call has the room it
needs and a valid lane number; then the buffer has its length and every element is the one the last call that writes it
wrote, or the original one; otherwise the sequence is undefined behaviour. -/
theorem stores_history {e : Elem} (cs : List (Nat × StoreCall e)) (b : Buffer e) :
    ((∀ o c, (o, c) ∈ cs → c.LaneOk ∧ o + c.need ≤ b.length) → ∃ b', runStores cs b = .ok b' ∧ b'.length = b.length ∧
      ∀ a, b'[a]? = match lastWritten a cs with | some x => some (some x) | none => b[a]?) ∧
    ((∃ o c, (o, c) ∈ cs ∧ ¬ (c.LaneOk ∧ o + c.need ≤ b.length)) → runStores cs b = .ub .outOfBounds) := by
  induction cs generalizing b with
  | nil => exact ⟨fun _ => ⟨b, rfl, rfl, fun _ => rfl⟩, by rintro ⟨o, c, hm, _⟩; simp at hm⟩
  | cons x cs ih =>
    obtain ⟨o, c⟩ := x
    obtain ⟨w1, w2⟩ := exec_written c ⟨b, o⟩
    by_cases hw : c.LaneOk ∧ o + c.need ≤ b.length
    · obtain ⟨p, h1, hlen, h2, h3⟩ := w1 hw
      obtain ⟨i1, i2⟩ := ih p.buf
      simp only at hlen h2 h3
      rw [hlen] at i1 i2
      constructor
      · intro h
        obtain ⟨b', j1, j2, j3⟩ := i1 fun o c hm => h o c (by simp [hm])
        refine ⟨b', by rw [runStores, h1, ok_bind, j1], j2, fun a => ?_⟩
        rw [j3 a, lastWritten]
        cases lastWritten a cs with
        | some x => rfl
        | none =>
          by_cases ho : o ≤ a
          · simp only [if_pos ho]
            cases hwr : c.written (a - o) with
            | some x =>
              have := h2 _ _ hwr
              rwa [show o + (a - o) = a by omega] at this
            | none => exact h3 a fun t ht => by rw [← hwr]; congr 1; omega
          · simp only [if_neg ho]
            exact h3 a fun t ht => by omega
      · rintro ⟨o', c', hm, hn⟩
        rw [runStores, h1, ok_bind]
        rcases List.mem_cons.1 hm with he | hm
        · cases he
          exact absurd hw hn
        · exact i2 ⟨o', c', hm, hn⟩
    · refine ⟨fun h => absurd (h o c (by simp)) hw, fun _ => ?_⟩
      rw [runStores, w2 hw]
      rfl

/-- After any sequence of store calls every element that no call writes is unchanged. -/
theorem stores_frame {e : Elem} (cs : List (Nat × StoreCall e)) (b b' : Buffer e) (h : runStores cs b = .ok b') :
    b'.length = b.length ∧ ∀ a, (∀ o c t, (o, c) ∈ cs → a = o + t → c.written t = none) → b'[a]? = b[a]? := by
  obtain ⟨h1, h2⟩ := stores_history cs b
  by_cases hc : ∀ o c, (o, c) ∈ cs → c.LaneOk ∧ o + c.need ≤ b.length
  · obtain ⟨b'', e1, e2, e3⟩ := h1 hc
    rw [h] at e1
    cases e1
    refine ⟨e2, fun a ha => ?_⟩
    rw [e3 a]
    have : lastWritten a cs = none := by
      clear h h1 h2 hc e2 e3
      induction cs with
      | nil => rfl
      | cons x cs ih =>
        obtain ⟨o, c⟩ := x
        rw [lastWritten, ih fun o c t hm => ha o c t (by simp [hm])]
        by_cases ho : o ≤ a
        · simp only [if_pos ho]
          exact ha o c (a - o) (by simp) (by omega)
        · simp only [if_neg ho]
    rw [this]
  · have : ∃ o c, (o, c) ∈ cs ∧ ¬ (c.LaneOk ∧ o + c.need ≤ b.length) := by
      refine Classical.byContradiction fun hn => hc fun o c hm => Classical.byContradiction fun hh => hn ⟨o, c, hm, hh⟩
    rw [h2 this] at h
    cases h

/-- A history in which a defective store overlaps others. -/
def demoDefective : List (Nat × StoreCall .u8) :=
  [(30, .vst1_u8 ⟨fun _ => 9⟩), (0, .vst4_u8 ⟨fun j => ⟨fun i => BitVec.ofNat 8 (10 * j + i)⟩⟩), (4, .vst1_u8 ⟨fun _ => 7⟩)]
example : ∀ o c, (o, c) ∈ demoDefective → c.LaneOk ∧ o + c.need ≤ (List.replicate 38 (none : Option (BitVec 8))).length := by
  intro o c h
  simp only [demoDefective, List.mem_cons, Prod.mk.injEq, List.not_mem_nil, or_false] at h
  rcases h with ⟨rfl, rfl⟩ | ⟨rfl, rfl⟩ | ⟨rfl, rfl⟩ <;> exact ⟨trivial, by decide⟩
example : (lastWritten 3 demoDefective, lastWritten 5 demoDefective, lastWritten 31 demoDefective, lastWritten 32 demoDefective) =
    (none, some 7, some 9, some 37) := by decide +kernel

end Verif.Props
