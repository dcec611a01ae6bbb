import Verif.ProgTyping
import Verif.Props.Typed
import Verif.Props.Client

/-! # Programs that a compiler accepts have exactly one outcome (C79) -/

namespace Verif.Props
open Verif.Cpp Verif.Machine

theorem arg_typed {L : Layout} {Γ : Ctx} {s : State} (hs : s.Fits L Γ) {a : Arg} {t : PTy} (h : a.HasTy Γ t) :
    Cpp.HasTy t (s.arg a) := by
  cases a with
  | var x =>
    cases t with
    | val t =>
      have := hs.var x _ h
      simp only [State.arg]
      cases hx : s.var x with
      | val o => rw [hx] at this; exact this
      | ptr b off => rw [hx] at this; exact this.elim
    | ptr c e =>
      have := hs.var x _ h
      simp only [State.arg]
      cases hx : s.var x with
      | val o => rw [hx] at this; exact this.elim
      | ptr b off =>
        rw [hx] at this
        have he : (s.mem b).1 = e := (hs.mem b).1.trans this
        subst he
        exact ⟨⟨(s.mem b).2, off⟩, rfl⟩
  | reg x j =>
    obtain ⟨e, n, k, hx, hj, rfl⟩ := h
    have := hs.var x _ hx
    simp only [State.arg]
    cases hv : s.var x with
    | ptr b off => rw [hv] at this; exact this.elim
    | val o =>
      rw [hv] at this
      obtain ⟨a, rfl⟩ := this
      refine ⟨a.reg ⟨j, hj⟩, ?_⟩
      show (if h : j < k then _ else _) = _
      rw [dif_pos hj]
      rfl
  | const o =>
    cases t with
    | val t => exact h
    | ptr c e => exact h.elim

theorem args_typed {L : Layout} {Γ : Ctx} {s : State} (hs : s.Fits L Γ) : ∀ {args : List Arg} {ts : List PTy},
    ArgsTyped Γ args ts → Typed ts (args.map s.arg)
  | [], [], _ => trivial
  | _ :: _, _ :: _, ⟨h, h'⟩ => ⟨arg_typed hs h, args_typed hs h'⟩

theorem expected_mono {L : Layout} {Δ : Ctx} {fs gs : List Nat} (h : ∀ f ∈ fs, f ∈ gs) {o : C State} (ho : Expected L Δ fs o) :
    Expected L Δ gs o := by
  cases o with
  | ok s => exact ho
  | abort m => obtain ⟨f, hf, hm⟩ := ho; exact ⟨f, h f hf, hm⟩
  | ub u => trivial
  | indet l => obtain ⟨f, hf, hm⟩ := ho; exact ⟨f, h f hf, hm⟩

/-- Going on after an expected outcome. -/
theorem then_expected {L : Layout} {Γ Δ : Ctx} {fs : List Nat} {a : C State} {k : State → C State → Prop}
    (ha : Expected L Γ fs a) (hk : ∀ s : State, s.Fits L Γ → ∃ o, k s o ∧ Expected L Δ fs o) :
    ∃ o, Then a k o ∧ Expected L Δ fs o := by
  cases a with
  | ok s => exact hk s ha
  | abort m => exact ⟨_, rfl, ha⟩
  | ub u => exact ⟨_, rfl, ha⟩
  | indet l => exact ⟨_, rfl, ha⟩

theorem fits_forget {L : Layout} {Γ Δ : Ctx} (h : ∀ x t, Δ x = some t → Γ x = some t) {s : State} (hs : s.Fits L Γ) : s.Fits L Δ :=
  ⟨hs.mem, fun x t hx => hs.var x t (h x t hx)⟩

theorem exec_exists [Dialect] {L : Layout} {Γ Δ : Ctx} {p : Prog} (h : HasType L Γ p Δ) :
    ∀ s : State, s.Fits L Γ → ∃ o, Exec p s o ∧ Expected L Δ p.calls o := by
  induction h with
  | skip => exact fun s hs => ⟨_, rfl, hs⟩
  | @call Γ x f args t g ht hg hr ha =>
    intro s hs
    obtain ⟨o, ho, hacc⟩ := call_total _ ht g hg _ (args_typed hs ha)
    have hc := (ho o).mpr rfl
    cases o with
    | ok r =>
      refine ⟨_, ⟨_, hc, rfl⟩, hs.mem, fun y t hy => ?_⟩
      show Cell.HasTy L t (if y = x then _ else _)
      unfold Ctx.set at hy
      split at hy
      · rename_i e
        cases hy
        rw [if_pos e]
        show Cpp.HasTy _ r
        have hacc : Returns g _ r := hacc
        unfold Returns at hacc
        split at hacc
        · rename_i h; exact absurd h hr
        · exact hacc
      · rename_i e
        rw [if_neg e]
        exact hs.var y t hy
    | abort m => exact ⟨_, ⟨_, hc, rfl⟩, f, List.mem_singleton_self _, hacc⟩
    | ub u => exact ⟨_, ⟨_, hc, rfl⟩, trivial⟩
    | indet l => exact ⟨_, ⟨_, hc, rfl⟩, f, List.mem_singleton_self _, hacc⟩
  | @store Γ f p args t g ht hg hr ha =>
    intro s hs
    obtain ⟨o, ho, hacc⟩ := call_total _ ht g hg _ (args_typed hs ha)
    have hc := (ho o).mpr rfl
    cases o with
    | ok r =>
      refine ⟨_, ⟨_, hc, rfl⟩, ?_⟩
      show (s.written p r).Fits L Γ
      unfold Accepted Returns at hacc
      rw [hr] at hacc
      obtain ⟨e, q, q', hq, rfl, h1, h2⟩ := hacc
      cases hp : s.var p with
      | val o =>
        have : s.written p (.ofPtr q') = s := by unfold State.written; rw [hp]
        rw [this]
        exact hs
      | ptr b off =>
        have hb : s.written p (.ofPtr q') = s.put b ⟨e, q'.buf⟩ := by unfold State.written; rw [hp]; rfl
        rw [hb]
        simp only [List.map_cons, List.head?_cons, State.arg, hp, Option.some.injEq, Obj.ofPtr, Obj.ptr.injEq] at hq
        obtain ⟨he, hq⟩ := hq
        subst he
        cases hq
        refine ⟨fun c => ?_, hs.var⟩
        by_cases hcb : c = b
        · subst hcb
          have hm : (s.put c ⟨(s.mem c).1, q'.buf⟩).mem c = ⟨(s.mem c).1, q'.buf⟩ := if_pos rfl
          rw [hm]
          exact ⟨(hs.mem c).1, h2.trans (hs.mem c).2⟩
        · have hm : (s.put b ⟨(s.mem b).1, q'.buf⟩).mem c = s.mem c := if_neg hcb
          rw [hm]
          exact hs.mem c
    | abort m => exact ⟨_, ⟨_, hc, rfl⟩, f, List.mem_singleton_self _, hacc⟩
    | ub u => exact ⟨_, ⟨_, hc, rfl⟩, trivial⟩
    | indet l => exact ⟨_, ⟨_, hc, rfl⟩, f, List.mem_singleton_self _, hacc⟩
  | glue h => exact fun s hs => ⟨_, rfl, h s hs⟩
  | seq hp hq ihp ihq =>
    intro s hs
    obtain ⟨a, ha, hae⟩ := ihp s hs
    obtain ⟨o, ho, hoe⟩ := then_expected (expected_mono (fun f hf => List.mem_append_left _ hf) hae) fun s hs => by
      obtain ⟨o, ho, he⟩ := ihq s hs
      exact ⟨o, ho, expected_mono (fun f hf => List.mem_append_right _ hf) he⟩
    exact ⟨o, ⟨a, ha, ho⟩, hoe⟩
  | @cond Γ Δ c p q hp hq ihp ihq =>
    intro s hs
    simp only [Exec]
    by_cases hc : c s
    · obtain ⟨o, ho, he⟩ := ihp s hs
      exact ⟨o, by rw [if_pos hc]; exact ho, expected_mono (fun f hf => List.mem_append_left _ hf) he⟩
    · obtain ⟨o, ho, he⟩ := ihq s hs
      exact ⟨o, by rw [if_neg hc]; exact ho, expected_mono (fun f hf => List.mem_append_right _ hf) he⟩
  | @loop Γ n p hp ih =>
    intro s hs
    show ∃ o, Iter (Exec p) (n s) s o ∧ _
    generalize n s = k
    induction k generalizing s with
    | zero => exact ⟨_, rfl, hs⟩
    | succ k ihk =>
      obtain ⟨a, ha, hae⟩ := ih s hs
      obtain ⟨o, ho, hoe⟩ := then_expected hae ihk
      exact ⟨o, ⟨a, ha, ho⟩, hoe⟩
  | forget h h1 h2 ih =>
    intro s hs
    obtain ⟨o, ho, he⟩ := ih s (fits_forget h1 hs)
    refine ⟨o, ho, ?_⟩
    cases o with
    | ok s => exact fits_forget h2 he
    | _ => exact he

/-- A program that a compiler accepts has exactly one outcome on the simulator, from every state of its types: it
ends with its variables of their types and its buffers of their sizes, or with a message of a function it calls,
or it is undefined, or one of its functions leaves lanes unwritten. -/
theorem program_total [Dialect] {L : Layout} {Γ Δ : Ctx} {p : Prog} (h : HasType L Γ p Δ) (s : State) (hs : s.Fits L Γ) :
    ∃ o, (∀ o', Exec p s o' ↔ o' = o) ∧ Expected L Δ p.calls o := by
  obtain ⟨o, ho, he⟩ := exec_exists h s hs
  exact ⟨o, fun _ => ⟨fun h' => exec_unique _ _ _ _ h' ho, fun e => e ▸ ho⟩, he⟩

/-! ## Concrete cases -/

theorem mem_of_lookup {f : Nat} {t : Text} : ∀ {l : List (Nat × Text)}, l.lookup f = some t → (f, t) ∈ l
  | (g, u) :: l, h => by
    rw [List.lookup_cons] at h
    split at h
    · rename_i e
      cases h
      rw [beq_iff_eq.mp e]
      exact .head _
    · exact .tail _ (mem_of_lookup h)

theorem advance_fits {L : Layout} {Γ : Ctx} {x k : Nat} {e : Elem} (hx : Γ x = some (.ptr e)) (s : State) (hs : s.Fits L Γ) :
    (advance x k s).Fits L Γ := by
  unfold advance
  have := hs.var x _ hx
  split
  · rename_i b off h
    rw [h] at this
    refine ⟨hs.mem, fun y t hy => ?_⟩
    show Cell.HasTy L t (if y = x then _ else _)
    split
    · rename_i e
      subst e
      cases hx.symm.trans hy
      exact this
    · exact hs.var y t hy
  · exact hs

theorem typed_forget {L : Layout} {Γ Δ Δ' : Ctx} {p : Prog} (h : HasType L Γ p Δ) (hd : ∀ x t, Δ' x = some t → Δ x = some t) :
    HasType L Γ p Δ' := .forget h (fun _ _ h => h) hd

open Arm in
/-- `call_total` applied to the text of `vshrn_n_u16` and an immediate that it rejects. -/
example [Dialect] (a : uint16x8_t) : ∃ o, (∀ o', Called k!"vshrn_n_u16" [.ofVec a, .ofInt 9] o' ↔ o' = o) ∧
    Accepted k!"vshrn_n_u16" vshrn_n_u16_sig [.ofVec a, .ofInt 9] o :=
  call_total (k!"vshrn_n_u16", .fn Source.vshrn_n_u16) (mem_of_lookup (by kernel_rfl)) vshrn_n_u16_sig vshrn_n_u16_sig_read
    [.ofVec a, .ofInt 9] ⟨⟨a, rfl⟩, ⟨9#32, rfl⟩, trivial⟩

/-- Two pointers to bytes. -/
def twoPtrs : Ctx := fun x => if x = 0 ∨ x = 1 then some (.ptr .u8) else none

open Arm in
/-- A compiler accepts the grey program, for any number of iterations. -/
theorem grey_typed (L : Layout) (m : Nat) : HasType L twoPtrs (greyProg m) (((twoPtrs.set 10 (.val (.vec .u8 8))).set 11
    (.val (.vec .u8 8))).set 12 (.val (.vec .u8 8))) := by
  unfold greyProg
  simp only [block]
  refine .seq (.call (mem_of_lookup (t := .fn Source.vdup_n_u8) (by kernel_rfl)) vdup_n_u8_sig_read (by decide) ⟨⟨_, rfl⟩, trivial⟩) ?_
  refine .seq (.call (mem_of_lookup (t := .fn Source.vdup_n_u8) (by kernel_rfl)) vdup_n_u8_sig_read (by decide) ⟨⟨_, rfl⟩, trivial⟩) ?_
  refine .seq (.call (mem_of_lookup (t := .fn Source.vdup_n_u8) (by kernel_rfl)) vdup_n_u8_sig_read (by decide) ⟨⟨_, rfl⟩, trivial⟩) ?_
  refine .seq (.loop ?_) .skip
  apply typed_forget
  · exact .seq (.call (mem_of_lookup (t := .fn Source.vld3_u8) (by kernel_rfl)) vld3_u8_sig_read (by decide) ⟨rfl, trivial⟩) <|
    .seq (.call (mem_of_lookup (t := .fn Source.vmull_u8) (by kernel_rfl)) vmull_u8_sig_read (by decide)
      ⟨⟨_, _, 3, rfl, by decide, rfl⟩, rfl, trivial⟩) <|
    .seq (.call (mem_of_lookup (t := .fn Source.vmlal_u8) (by kernel_rfl)) vmlal_u8_sig_read (by decide)
      ⟨rfl, ⟨_, _, 3, rfl, by decide, rfl⟩, rfl, trivial⟩) <|
    .seq (.call (mem_of_lookup (t := .fn Source.vmlal_u8) (by kernel_rfl)) vmlal_u8_sig_read (by decide)
      ⟨rfl, ⟨_, _, 3, rfl, by decide, rfl⟩, rfl, trivial⟩) <|
    .seq (.call (mem_of_lookup (t := .fn Source.vshrn_n_u16) (by kernel_rfl)) vshrn_n_u16_sig_read (by decide)
      ⟨rfl, ⟨8#32, rfl⟩, trivial⟩) <|
    .seq (.store (mem_of_lookup (t := .fn Source.vst1_u8) (by kernel_rfl)) vst1_u8_sig_read rfl
      ⟨rfl, rfl, trivial⟩) <|
    .seq (.glue (advance_fits (e := .u8) rfl)) <|
    .seq (.glue (advance_fits (e := .u8) rfl)) .skip
  · intro x t h
    by_cases h2 : x = 2
    · subst h2; cases h
    by_cases h3 : x = 3
    · subst h3; cases h
    by_cases h4 : x = 4
    · subst h4; cases h
    simpa only [Ctx.set, h2, h3, h4, if_false, vld3_u8_sig, vmull_u8_sig, vmlal_u8_sig, vshrn_n_u16_sig, vdup_n_u8_sig] using h

/-- A state of these types: buffers of 48 and 16 bytes, the second pointer to byte 3 of the second. -/
def greyState : State := ⟨fun b => ⟨.u8, List.replicate (if b = 0 then 48 else 16) (some 9#8)⟩,
  fun x => if x = 0 then .ptr 0 0 else .ptr 1 3⟩

/-- From it the grey program has exactly one outcome (with three iterations it writes past the buffer). -/
example [Dialect] : ∃ o, (∀ o', Exec (greyProg 3) greyState o' ↔ o' = o) ∧
    Expected (fun b => (.u8, if b = 0 then 48 else 16)) (((twoPtrs.set 10 (.val (.vec .u8 8))).set 11
    (.val (.vec .u8 8))).set 12 (.val (.vec .u8 8))) (greyProg 3).calls o :=
  program_total (grey_typed _ 3) greyState ⟨fun b => ⟨rfl, List.length_replicate⟩, fun x t h => by
    unfold twoPtrs at h
    split at h
    · cases h
      rename_i hx
      rcases hx with rfl | rfl <;> rfl
    · cases h⟩

end Verif.Props
