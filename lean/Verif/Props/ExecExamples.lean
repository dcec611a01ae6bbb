import Verif.Props.MachineLibrary
import Verif.Props.ProgTotal
import Verif.Props.AddSub
import Verif.Props.Perm
import Verif.Props.Store

/-! Property C96, continued: calls on the abstract machine, byte by byte. -/

namespace Verif.Props
open Verif.Cpp Verif.SpecExec Verif.Arm Verif.Model

/-- A call of the library on the abstract machine, from its outcome in the model. -/
theorem library_executes [Dialect] {e : Nat × Text} (he : e ∈ library) {g : Sig} (hg : e.2.sig e.1 = some g) {args : List Obj}
    (ha : Cpp.Typed g.params args) {o : C Obj} (h : Cpp.Called e.1 args o) : Executes e.1 args o e.2 := by
  obtain ⟨o', h1, h2⟩ := library_machine e he g hg args ha
  cases (h1 o).1 h
  exact h2

theorem alike_iff {α : Type} {P : C α → Prop} {r : C α} (h0 : P r) (h1 : ∀ r', P r' → Alike r' r) (h : undefined r = false) (r' : C α) :
    P r' ↔ r' = r := by
  refine ⟨fun h' => ?_, fun h' => h' ▸ h0⟩
  rcases h1 r' h' with h' | h'
  · exact h'
  · exact absurd h'.2 (by simp [h])

/-- The outcome of a call that returns a register. -/
theorem machine_value [Dialect] {u : TransUnit} {g : Func} {args : List Obj} {e : Elem} {n : Nat} {v : Vec e n}
    (h : Machine u g args (.ok (.ofVec v))) (r : C Effect) :
    SpecExec.Called Dialect.wrapv u g (args.map argOf) r ↔ r = .ok (.value (.vec e n) (image (.ofVec v))) := by
  obtain ⟨r', h0, h1, h2⟩ := h
  cases h2
  exact alike_iff h0 h1 rfl r

theorem machine_ub [Dialect] {u : TransUnit} {g : Func} {args : List Obj} {b : UB}
    (h : Machine u g args (.ub b)) : SpecExec.Called Dialect.wrapv u g (args.map argOf) (.ub b) ∧
      ∀ r, SpecExec.Called Dialect.wrapv u g (args.map argOf) r → undefined r = true := by
  obtain ⟨r', h0, h1, h2⟩ := h
  cases h2
  refine ⟨h0, fun r h => ?_⟩
  rcases h1 r h with rfl | h
  · rfl
  · exact h.1

theorem machine_abort [Dialect] {u : TransUnit} {g : Func} {args : List Obj} {m : String}
    (h : Machine u g args (.abort m)) (r : C Effect) : SpecExec.Called Dialect.wrapv u g (args.map argOf) r ↔ r = .abort m := by
  obtain ⟨r', h0, h1, h2⟩ := h
  cases h2
  exact alike_iff h0 h1 rfl r

theorem flat_ones (L : List (BitVec 8)) : flat 1 (L.map fun b => some b.toNat) = L.map some := by
  induction L with
  | nil => rfl
  | cons b L ih =>
    unfold flat at ih ⊢
    rw [List.map_cons, List.map_cons, List.flatten_cons, ih, List.map_cons]
    show some (BitVec.ofNat 8 b.toNat) :: _ = _
    rw [BitVec.ofNat_toNat, BitVec.setWidth_eq]; rfl

/-- The bytes of a register of bytes. -/
theorem image_s8 {n : Nat} (v : Vec .s8 n) : image (.ofVec v) = List.ofFn fun i => some (v.lane i) := by
  have h := flat_ones (List.ofFn fun i => v.lane i)
  rw [List.map_ofFn, List.map_ofFn] at h
  exact h

theorem image_u8 {n : Nat} (v : Vec .u8 n) : image (.ofVec v) = List.ofFn fun i => some (v.lane i) := by
  have h := flat_ones (List.ofFn fun i => v.lane i)
  rw [List.map_ofFn, List.map_ofFn] at h
  exact h

/-- `vadd_s8` on the abstract machine: for all bytes of the operands, the only outcome of the call are the sums of the bytes. -/
theorem vadd_s8_bytes [Dialect] (a b : int8x8_t) :
    ∃ g, IsFunction Source.vadd_s8 g ∧ ∀ u r, SpecExec.Called Dialect.wrapv u g
      [.object (.vec .s8 8) (List.ofFn fun i => some (a.lane i)), .object (.vec .s8 8) (List.ofFn fun i => some (b.lane i))] r ↔
        r = .ok (.value (.vec .s8 8) (List.ofFn fun i => some (a.lane i + b.lane i))) := by
  obtain ⟨g, h1, h2⟩ := library_executes (e := (k!"vadd_s8", .fn Source.vadd_s8)) (mem_of_lookup (by kernel_rfl))
    vadd_s8_sig_read (args := [.ofVec a, .ofVec b]) ⟨⟨a, rfl⟩, ⟨b, rfl⟩, trivial⟩ (called_fn (by kernel_rfl) (vadd_s8_source a b))
  refine ⟨g, h1, fun u r => ?_⟩
  have h := h2 u
  rw [vadd_s8_spec] at h
  have := machine_value (v := (⟨fun i => a.lane i + b.lane i⟩ : Vec .s8 8)) h r
  rw [image_s8] at this
  rw [← this, ← image_s8, ← image_s8]
  rfl

/-- The signed sum of two 32-bit lanes that overflows has undefined behaviour in standard C++, whatever the rest of the translation unit. -/
theorem vadd_s32_undefined : ∃ (a b : int32x2_t) (g : Func), IsFunction Source.vadd_s32 g ∧
    ∀ u, SpecExec.Called false u g [argOf (.ofVec a), argOf (.ofVec b)] (.ub .signedOverflow) ∧
      ∀ r, SpecExec.Called false u g [argOf (.ofVec a), argOf (.ofVec b)] r → undefined r = true := by
  let D := Dialect.strict
  obtain ⟨a, b, h⟩ := @vadd_s32_ub D rfl
  obtain ⟨g, h1, h2⟩ := @library_executes D (k!"vadd_s32", .fn Source.vadd_s32) (mem_of_lookup (by kernel_rfl)) _
    vadd_s32_sig_read [.ofVec a, .ofVec b] ⟨⟨a, rfl⟩, ⟨b, rfl⟩, trivial⟩ _ (called_fn (by kernel_rfl) (@vadd_s32_source D a b))
  refine ⟨a, b, g, h1, fun u => ?_⟩
  have h' := h2 u
  rw [h] at h'
  exact machine_ub h'

/-- The same sum wraps around when the compiler defines signed overflow: all bytes of the result are known. -/
theorem vadd_s32_wraps (a b : int32x2_t) : ∃ g : Func, IsFunction Source.vadd_s32 g ∧
    ∀ u r, SpecExec.Called true u g [argOf (.ofVec a), argOf (.ofVec b)] r ↔
      r = .ok (.value (.vec .s32 2) (image (.ofVec (⟨fun i => a.lane i + b.lane i⟩ : int32x2_t)))) := by
  let D := Dialect.wrapping
  obtain ⟨g, h1, h2⟩ := @library_executes D (k!"vadd_s32", .fn Source.vadd_s32) (mem_of_lookup (by kernel_rfl)) _
    vadd_s32_sig_read [.ofVec a, .ofVec b] ⟨⟨a, rfl⟩, ⟨b, rfl⟩, trivial⟩ _ (called_fn (by kernel_rfl) (@vadd_s32_source D a b))
  refine ⟨g, h1, fun u r => ?_⟩
  have h' := h2 u
  rw [@vadd_s32_partial D, if_pos fun i => .inl rfl] at h'
  exact machine_value h' r

/-- `vext_s16` with an offset that is out of range prints its message and aborts. -/
theorem vext_s16_message [Dialect] (a b : int16x4_t) : ∃ g : Func, IsFunction Source.vext_s16 g ∧
    ∀ u r, SpecExec.Called Dialect.wrapv u g [argOf (.ofVec a), argOf (.ofVec b), argOf (.ofInt 9)] r ↔
      r = .abort "vext_s16: param n is not in range [0, 4]\n" := by
  obtain ⟨g, h1, h2⟩ := library_executes (e := (k!"vext_s16", .fn Source.vext_s16)) (mem_of_lookup (by kernel_rfl))
    vext_s16_sig_read (args := [.ofVec a, .ofVec b, .ofInt 9]) ⟨⟨a, rfl⟩, ⟨b, rfl⟩, ⟨9#32, rfl⟩, trivial⟩
    (called_fn (by kernel_rfl) (vext_s16_source a b 9 (by decide)))
  exact ⟨g, h1, fun u r => machine_abort (h2 u) r⟩

theorem flat_cells (L : List (Option (BitVec 8))) : flat 1 (L.map (·.map BitVec.toNat)) = L := by
  induction L with
  | nil => rfl
  | cons b L ih =>
    unfold flat at ih ⊢
    rw [List.map_cons, List.map_cons, List.flatten_cons, ih]
    cases b with
    | none => rfl
    | some b =>
      show some (BitVec.ofNat 8 b.toNat) :: _ = _
      rw [BitVec.ofNat_toNat, BitVec.setWidth_eq]; rfl

/-- The buffer after a store, as a list. -/
theorem stored_list {n : Nat} {l m r : List (Option (BitVec 8))} (hm : m.length = n) {x : Fin n → BitVec 8} {p' : Ptr .u8}
    (h : Spec.Stored (⟨l ++ m ++ r, l.length⟩ : Ptr .u8) x p') : p'.buf = l ++ (List.ofFn fun i => some (x i)) ++ r := by
  apply List.ext_getElem?
  intro a
  by_cases h1 : a < l.length
  · rw [h.frame a (.inl h1)]
    show (l ++ m ++ r)[a]? = _
    rw [List.append_assoc, List.append_assoc, List.getElem?_append_left h1, List.getElem?_append_left h1]
  by_cases h2 : l.length + n ≤ a
  · rw [h.frame a (.inr h2)]
    show (l ++ m ++ r)[a]? = _
    rw [List.getElem?_append_right (by rw [List.length_append]; omega),
      List.getElem?_append_right (by rw [List.length_append, List.length_ofFn]; omega), List.length_append, List.length_append,
      List.length_ofFn, hm]
  · have h3 := h.written ⟨a - l.length, by omega⟩
    have e : l.length + (a - l.length) = a := by omega
    replace h3 : p'.buf[l.length + (a - l.length)]? = some (some (x ⟨a - l.length, by omega⟩)) := h3
    rw [e] at h3
    rw [h3, List.getElem?_append_left (by rw [List.length_append, List.length_ofFn]; omega), List.getElem?_append_right (by omega),
      List.getElem?_ofFn, dif_pos (by omega)]

/-- `vst1_u8` on the abstract machine: the eight bytes after the pointer are replaced, all other bytes of the block remain. -/
theorem vst1_u8_bytes [Dialect] (l m r : List (Option (BitVec 8))) (hm : m.length = 8) (v : uint8x8_t) :
    ∃ g, IsFunction Source.vst1_u8 g ∧ ∀ u, ∃ μ : Memory, μ[0]? = some (l ++ (List.ofFn fun i => some (v.lane i)) ++ r) ∧
      ∀ o, SpecExec.Called Dialect.wrapv u g
        [.pointer .u8 (l ++ m ++ r) l.length, .object (.vec .u8 8) (List.ofFn fun i => some (v.lane i))] o ↔ o = .ok (.void μ) := by
  have hs := vst1_u8_spec ⟨l ++ m ++ r, l.length⟩ v
  obtain ⟨p', h1, h2⟩ := hs.1 (by
    show l.length + 8 ≤ (l ++ m ++ r).length
    rw [List.length_append, List.length_append, hm]; omega)
  obtain ⟨g, h3, h4⟩ := library_executes (e := (k!"vst1_u8", .fn Source.vst1_u8)) (mem_of_lookup (by kernel_rfl))
    vst1_u8_sig_read (args := [.ofPtr (⟨l ++ m ++ r, l.length⟩ : Ptr .u8), .ofVec v]) ⟨⟨_, rfl⟩, ⟨v, rfl⟩, trivial⟩
    (called_fn (by kernel_rfl) (vst1_u8_source ⟨l ++ m ++ r, l.length⟩ v))
  refine ⟨g, h3, fun u => ?_⟩
  obtain ⟨o', h0, h5, h6⟩ := h4 u
  rw [h1] at h6
  replace h6 : Shows _ (.ok (.ptr .u8 p')) o' := h6
  cases h6 with
  | value _ hp => cases hp
  | void i e p q μ h7 h8 h9 h10 =>
    have hi : i = 0 := by
      cases i with
      | zero => rfl
      | succ i => exact Bool.noConfusion (h7 _ (List.mem_cons_self ..))
    subst hi
    refine ⟨μ, ?_, fun o => ?_⟩
    · rw [h10, ← stored_list hm h2]
      exact congrArg some (flat_cells p'.buf)
    · rw [← alike_iff h0 h5 rfl o]
      have e1 : argOf (.ofPtr (⟨l ++ m ++ r, l.length⟩ : Ptr .u8)) = .pointer .u8 (l ++ m ++ r) l.length :=
        congrArg (fun b => Arg.pointer .u8 b l.length) (flat_cells (l ++ m ++ r))
      have e2 : argOf (.ofVec v) = .object (.vec .u8 8) (List.ofFn fun i => some (v.lane i)) :=
        congrArg (Arg.object (.vec .u8 8)) (image_u8 v)
      rw [List.map_cons, List.map_cons, List.map_nil, e1, e2]
example := fun [Dialect] => vst1_u8_bytes [some 1#8, none] (List.replicate 8 none) [some 7#8] rfl ⟨fun i => BitVec.ofNat 8 (4 + i.val)⟩

end Verif.Props
