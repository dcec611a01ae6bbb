import Verif.Props.Program
import Verif.Props.Pipeline

/-!
# Client programs, verified against the architecture's meaning of the intrinsics (C77)

The programs are not code of the repository.  Each is verified from `Arm.Means` alone, for buffers of
any length; by `program_ensures_partial` the texts of `neon_sim.cpp` then compute the same.
-/

namespace Verif.Props
open Verif.Cpp Verif.Arm Verif.Machine Verif.Spec

/-- `x += k;` for a pointer variable -/
def advance (x k : Nat) (s : State) : State :=
  match s.var x with
  | .ptr b off => s.set x (.ptr b (off + k))
  | .val _ => s

/-- `a; b; …` -/
def block : List Prog → Prog
  | [] => .skip
  | p :: ps => .seq p (block ps)

theorem arg_ptr {s : State} {x b off : Nat} {e : Elem} {d : Contents e} (h : s.var x = .ptr b off) (hm : s.mem b = ⟨e, d⟩) :
    s.arg (.var x) = .ofPtr ⟨d, off⟩ := by
  simp only [State.arg, h]
  rw [hm]
  rfl

theorem arg_val {s : State} {x : Nat} {o : Obj} (h : s.var x = .val o) : s.arg (.var x) = o := by
  simp only [State.arg, h]

theorem assign_var (s : State) (x y : Nat) (r : Obj) : (s.assign x r).var y = if y = x then .val r else s.var y := rfl
theorem assign_mem (s : State) (x b : Nat) (r : Obj) : (s.assign x r).mem b = s.mem b := rfl

theorem written_var (s : State) (p y : Nat) (r : Obj) : (s.written p r).var y = s.var y := by
  unfold State.written; split <;> rfl

theorem written_mem {s : State} {p b off : Nat} (h : s.var p = .ptr b off) {e : Elem} (q : Ptr e) (c : Nat) :
    (s.written p (.ofPtr q)).mem c = if c = b then ⟨e, q.buf⟩ else s.mem c := by
  simp only [State.written, h, Obj.ofPtr, State.put]

theorem advance_mem (x k : Nat) (s : State) (b : Nat) : (advance x k s).mem b = s.mem b := by
  unfold advance; split <;> rfl

theorem advance_var {x k b off : Nat} {s : State} (h : s.var x = .ptr b off) (y : Nat) :
    (advance x k s).var y = if y = x then .ptr b (off + k) else s.var y := by
  simp only [advance, h, State.set]

/-- Storing a block behind the `k` elements stored so far. -/
theorem stored_extend {e : Elem} {k n : Nat} {d d' d'' : List (Option (BitVec e.bits))} {o : Nat} (y : Nat → BitVec e.bits)
    {v : Fin n → BitVec e.bits} (hv : ∀ i : Fin n, v i = y (k + i))
    (h : Stored ⟨d, o⟩ (fun j : Fin k => y j) ⟨d', o⟩) (h' : Stored ⟨d', o + k⟩ v ⟨d'', o + k⟩) :
    Stored ⟨d, o⟩ (fun j : Fin (k + n) => y j) ⟨d'', o⟩ := by
  refine ⟨rfl, h'.size.trans h.size, fun i => ?_, fun a ha => ?_⟩
  · rcases Nat.lt_or_ge i.val k with hi | hi
    · have h1 := h'.frame (o + i) (by left; show o + i.val < o + k; omega)
      exact h1.trans (h.written ⟨i, hi⟩)
    · have h1 := h'.written ⟨i - k, by omega⟩
      rw [hv] at h1
      have e1 : o + k + (i.val - k) = o + i := by omega
      have e2 : k + (i.val - k) = i := by omega
      simpa only [e1, e2] using h1
  · have h1 := h'.frame a (by rcases ha with ha | ha <;> simp only at ha ⊢ <;> omega)
    exact h1.trans (h.frame a (by rcases ha with ha | ha <;> simp only at ha ⊢ <;> omega))

/-- A block can be stored wherever there is room for it. -/
theorem stored_exists {e : Elem} {n : Nat} (p : Ptr e) (v : Fin n → BitVec e.bits) (h : Writable p n) :
    ∃ d, Stored p v ⟨d, p.off⟩ := by
  refine ⟨p.buf.mapIdx fun a o => if h : p.off ≤ a ∧ a < p.off + n then some (v ⟨a - p.off, by omega⟩) else o,
    rfl, List.length_mapIdx, fun i => ?_, fun a ha => ?_⟩
  · have hb : p.off + i < p.buf.length := by unfold Writable at h; omega
    simp only [List.getElem?_mapIdx, List.getElem?_eq_getElem hb, Option.map_some]
    rw [dif_pos (by omega)]
    simp only [Nat.add_sub_cancel_left]
  · simp only [List.getElem?_mapIdx]
    rw [show (fun o => if h : p.off ≤ a ∧ a < p.off + n then some (v ⟨a - p.off, by omega⟩) else o) = id by
      funext o; rw [dif_neg (by omega)]; rfl, Option.map_id]
    rfl

/-! ## Interleaved RGB to grey -/

/-- `w0 = vdup_n_u8(77); w1 = vdup_n_u8(151); w2 = vdup_n_u8(28);
for (i = 0; i < m; i++) { rgb = vld3_u8(src); acc = vmull_u8(rgb.val[0], w0); acc = vmlal_u8(acc, rgb.val[1], w1);
acc = vmlal_u8(acc, rgb.val[2], w2); g = vshrn_n_u16(acc, 8); vst1_u8(dst, g); src += 24; dst += 8; }` -/
def greyProg (m : Nat) : Prog :=
  block [
    .call 10 k!"vdup_n_u8" [.const (.ofScalar .u8 77#8)],
    .call 11 k!"vdup_n_u8" [.const (.ofScalar .u8 151#8)],
    .call 12 k!"vdup_n_u8" [.const (.ofScalar .u8 28#8)],
    .loop (fun _ => m) <| block [
      .call 2 k!"vld3_u8" [.var 0],
      .call 3 k!"vmull_u8" [.reg 2 0, .var 10],
      .call 3 k!"vmlal_u8" [.var 3, .reg 2 1, .var 11],
      .call 3 k!"vmlal_u8" [.var 3, .reg 2 2, .var 12],
      .call 4 k!"vshrn_n_u16" [.var 3, .imm 8],
      .store k!"vst1_u8" 1 [.var 4],
      .glue (advance 0 24),
      .glue (advance 1 8)]]

theorem grey_ensures [Dialect] (m : Nat) (s : State) (src dst : Ptr .u8) (x : Nat → BitVec 8)
    (h0 : s.var 0 = .ptr 0 src.off) (h1 : s.var 1 = .ptr 1 dst.off)
    (hm0 : s.mem 0 = ⟨.u8, src.buf⟩) (hm1 : s.mem 1 = ⟨.u8, dst.buf⟩)
    (hx : ∀ j < 24 * m, Holds src j (x j)) (hw : Writable dst (8 * m)) :
    Ensures (greyProg m) (fun t => t.mem 0 = ⟨.u8, src.buf⟩ ∧ ∃ p : Ptr .u8, t.mem 1 = ⟨.u8, p.buf⟩ ∧
      Stored dst (fun j : Fin (8 * m) => BitVec.ofNat 8
        ((77 * (x (3 * j)).toNat + 151 * (x (3 * j + 1)).toNat + 28 * (x (3 * j + 2)).toNat) / 256)) p) s := by
  let y : Nat → BitVec 8 := fun j => BitVec.ofNat 8
    ((77 * (x (3 * j)).toNat + 151 * (x (3 * j + 1)).toNat + 28 * (x (3 * j + 2)).toNat) / 256)
  simp only [greyProg, block]
  refine ensures_call _ (.move (.vdup_n_u8 77#8)) (by decide +kernel) ?_
  refine ensures_call _ (.move (.vdup_n_u8 151#8)) (by decide +kernel) ?_
  refine ensures_call _ (.move (.vdup_n_u8 28#8)) (by decide +kernel) ?_
  refine ensures_mono (.loop (fun _ => m) _) _ _ _ ?_ (ensures_loop (n := fun _ => m) (fun k t => t.var 0 = .ptr 0 (src.off + 24 * k) ∧
    t.var 1 = .ptr 1 (dst.off + 8 * k) ∧
    t.var 10 = .val (.ofVec (⟨fun _ => 77#8⟩ : uint8x8_t)) ∧ t.var 11 = .val (.ofVec (⟨fun _ => 151#8⟩ : uint8x8_t)) ∧
    t.var 12 = .val (.ofVec (⟨fun _ => 28#8⟩ : uint8x8_t)) ∧ t.mem 0 = ⟨.u8, src.buf⟩ ∧
    ∃ d, t.mem 1 = ⟨.u8, d⟩ ∧ Stored dst (fun j : Fin (8 * k) => y j) ⟨d, dst.off⟩) ?_ ?_)
  · rintro t ⟨-, -, -, -, -, hm, d, hd, hs⟩
    exact ⟨hm, ⟨d, dst.off⟩, hd, hs⟩
  · simp only [State.assign, State.set, h0, h1, hm0, hm1]
    refine ⟨rfl, rfl, rfl, rfl, rfl, trivial, dst.buf, rfl, rfl, rfl, fun i => absurd i.isLt (by simp), fun _ _ => rfl⟩
  · rintro k hk t ⟨v0, v1, v10, v11, v12, m0, d, m1, hd⟩
    have hk : k < m := hk
    refine ensures_call (.ofVecArr (⟨fun j => ⟨fun i => x (24 * k + (3 * i + j))⟩⟩ : uint8x8x3_t)) ?_ (by decide +kernel) ?_
    · rw [List.map_singleton, arg_ptr v0 m0]
      exact .load (.vld3_u8 _ _ fun j i => by
        have := hx (24 * k + (3 * i + j)) (by omega)
        simpa only [Holds, Nat.add_assoc] using this)
    refine ensures_call (.ofVec (⟨fun i => (x (24 * k + (3 * i + 0))).setWidth 16 * (77#8).setWidth 16⟩ : uint16x8_t)) ?_
      (by decide +kernel) ?_
    · simp only [List.map, State.arg, State.assign, State.set, v10]
      exact .mul (.vmull_u8 ⟨fun i => x (24 * k + (3 * i + 0))⟩ _)
    refine ensures_call (.ofVec (⟨fun i => (x (24 * k + (3 * i + 0))).setWidth 16 * (77#8).setWidth 16 +
      (x (24 * k + (3 * i + 1))).setWidth 16 * (151#8).setWidth 16⟩ : uint16x8_t)) ?_ (by decide +kernel) ?_
    · simp only [List.map, State.arg, State.assign, State.set, v11]
      exact .mul (.vmlal_u8 ⟨_⟩ ⟨fun i => x (24 * k + (3 * i + 1))⟩ _)
    refine ensures_call (.ofVec (⟨fun i => (x (24 * k + (3 * i + 0))).setWidth 16 * (77#8).setWidth 16 +
      (x (24 * k + (3 * i + 1))).setWidth 16 * (151#8).setWidth 16 +
      (x (24 * k + (3 * i + 2))).setWidth 16 * (28#8).setWidth 16⟩ : uint16x8_t)) ?_ (by decide +kernel) ?_
    · simp only [List.map, State.arg, State.assign, State.set, v12]
      exact .mul (.vmlal_u8 ⟨_⟩ ⟨fun i => x (24 * k + (3 * i + 2))⟩ _)
    refine ensures_call (.ofVec (⟨fun i => y (8 * k + i)⟩ : uint8x8_t)) ?_ (by decide +kernel) ?_
    · have : (⟨fun i => y (8 * k + i)⟩ : uint8x8_t) = ⟨fun i => ((((x (24 * k + (3 * i + 0))).setWidth 16 * (77#8).setWidth 16 +
          (x (24 * k + (3 * i + 1))).setWidth 16 * (151#8).setWidth 16 +
          (x (24 * k + (3 * i + 2))).setWidth 16 * (28#8).setWidth 16) >>> 8).setWidth 8)⟩ := by
        refine congrArg Vec.mk (funext fun i => ?_)
        have e0 : 24 * k + (3 * i.val + 0) = 3 * (8 * k + i) := by omega
        have e1 : 24 * k + (3 * i.val + 1) = 3 * (8 * k + i) + 1 := by omega
        have e2 : 24 * k + (3 * i.val + 2) = 3 * (8 * k + i) + 2 := by omega
        refine Eq.trans ?_ (grey_lane _ _ _).symm
        simp only [e0, e1, e2, y]
      rw [this]
      exact .shift (.vshrn_n_u16 ⟨_⟩ 8 (by decide) (by decide))
    generalize hT : State.assign _ 4 _ = T
    have m0' := (show T.mem 0 = t.mem 0 by rw [← hT]; rfl).trans m0
    have m1' := (show T.mem 1 = t.mem 1 by rw [← hT]; rfl).trans m1
    have v0' := (show T.var 0 = t.var 0 by rw [← hT]; rfl).trans v0
    have v1' := (show T.var 1 = t.var 1 by rw [← hT]; rfl).trans v1
    have v10' := (show T.var 10 = t.var 10 by rw [← hT]; rfl).trans v10
    have v11' := (show T.var 11 = t.var 11 by rw [← hT]; rfl).trans v11
    have v12' := (show T.var 12 = t.var 12 by rw [← hT]; rfl).trans v12
    have v4' : T.var 4 = .val (.ofVec (⟨fun i => y (8 * k + i)⟩ : uint8x8_t)) := by rw [← hT]; rfl
    have hwk : Writable (⟨d, dst.off + 8 * k⟩ : Ptr .u8) 8 := by
      have := hd.size
      unfold Writable at hw ⊢
      simp only at this ⊢
      omega
    obtain ⟨d', hd'⟩ := stored_exists (⟨d, dst.off + 8 * k⟩ : Ptr .u8) (fun i : Fin 8 => y (8 * k + i)) hwk
    refine ensures_store (.ofPtr ⟨d', dst.off + 8 * k⟩) ?_ (by decide +kernel) ?_
    · rw [List.map_singleton, arg_ptr v1' m1', arg_val v4']
      exact .store (.vst1_u8 _ ⟨_⟩ _ hwk hd')
    · have w0 : (T.written 1 (.ofPtr ⟨d', dst.off + 8 * k⟩)).var 0 = _ := (written_var ..).trans v0'
      have w1 : (advance 0 24 (T.written 1 (.ofPtr ⟨d', dst.off + 8 * k⟩))).var 1 = _ :=
        (advance_var w0 1).trans ((written_var ..).trans v1')
      simp only [Ensures, advance_mem, advance_var w1, advance_var w0, written_var, written_mem v1', v10', v11', v12', m0', v0']
      have hn : Stored (⟨dst.buf, dst.off⟩ : Ptr .u8) (fun j : Fin (8 * k + 8) => y j) ⟨d', dst.off⟩ :=
        stored_extend (e := .u8) (k := 8 * k) (n := 8) y (fun _ => rfl) hd hd'
      exact ⟨rfl, rfl, rfl, rfl, rfl, rfl, d', rfl, hn⟩

/-- On the simulator, with signed overflow undefined or wrapping: the grey image of an image of `8 * m` pixels. -/
theorem grey_program [Dialect] (m : Nat) (s : State) (src dst : Ptr .u8) (x : Nat → BitVec 8)
    (h0 : s.var 0 = .ptr 0 src.off) (h1 : s.var 1 = .ptr 1 dst.off)
    (hm0 : s.mem 0 = ⟨.u8, src.buf⟩) (hm1 : s.mem 1 = ⟨.u8, dst.buf⟩)
    (hx : ∀ j < 24 * m, Holds src j (x j)) (hw : Writable dst (8 * m)) :
    ∃ t, (∀ o, Exec (greyProg m) s o ↔ o = .ok t) ∧ t.mem 0 = ⟨.u8, src.buf⟩ ∧
      ∃ p : Ptr .u8, t.mem 1 = ⟨.u8, p.buf⟩ ∧ Stored dst (fun j : Fin (8 * m) => BitVec.ofNat 8
        ((77 * (x (3 * j)).toNat + 151 * (x (3 * j + 1)).toNat + 28 * (x (3 * j + 2)).toNat) / 256)) p := by
  obtain ⟨t, ht, he⟩ := program_ensures_partial _ _ _ (grey_ensures m s src dst x h0 h1 hm0 hm1 hx hw)
  exact ⟨t, he, ht⟩

/-- Two buffers with the contents of `p` and `q`, and pointers to them. -/
def twoBuffers {e e' : Elem} (p : Ptr e) (q : Ptr e') : State where
  mem b := if b = 0 then ⟨e, p.buf⟩ else ⟨e', q.buf⟩
  var x := if x = 0 then .ptr 0 p.off else .ptr 1 q.off

example : ∃ t, (letI := Dialect.strict; Exec (greyProg 1000) (twoBuffers (demo .u8 24000) (demo .u8 8000)) (.ok t)) := by
  let _ := Dialect.strict
  obtain ⟨t, he, -⟩ := grey_program 1000 (twoBuffers (demo .u8 24000) (demo .u8 8000)) (demo .u8 24000) (demo .u8 8000) _
    rfl rfl rfl rfl (demo_holds .u8 24000) (demo_writable .u8 8000)
  exact ⟨t, (he _).2 rfl⟩

end Verif.Props
