import Verif.Props.ExecOps
import Verif.SpecCall

/-! Property C96: the objects of the interpreter and the bytes of the abstract machine. -/

namespace Verif.Props
open Verif.Cpp Verif.SpecCpp Verif.SpecExec

/-! ## Bytes -/

theorem bytes_length (n v : Nat) : (bytes n v).length = n := by
  induction n generalizing v with
  | zero => rfl
  | succ n ih => rw [bytes, List.length_cons, ih]

theorem number_bytes (n v : Nat) : number (bytes n v) = v % 256 ^ n := by
  induction n generalizing v with
  | zero => rw [bytes, number, Nat.pow_zero, Nat.mod_one]
  | succ n ih =>
    rw [bytes, number, ih, BitVec.toNat_ofNat, show 256 ^ (n + 1) = 256 * 256 ^ n from Nat.pow_succ' .., Nat.mod_mul (a := 256) (b := 256 ^ n)]

theorem number_lt (bs : List Byte) : number bs < 256 ^ bs.length := by
  induction bs with
  | nil => exact Nat.one_pos
  | cons b bs ih =>
    rw [number, List.length_cons, Nat.pow_succ']
    have := b.isLt
    omega

theorem bytes_number (bs : List Byte) : bytes bs.length (number bs) = bs := by
  induction bs with
  | nil => rfl
  | cons b bs ih =>
    have := b.isLt
    rw [List.length_cons, number, bytes]
    have e1 : (b.toNat + 256 * number bs) / 256 = number bs := by omega
    have e2 : BitVec.ofNat 8 (b.toNat + 256 * number bs) = b := by
      apply BitVec.eq_of_toNat_eq
      rw [BitVec.toNat_ofNat]
      omega
    rw [e1, e2, ih]

theorem size_bits (e : Elem) : 8 * size e = e.bits := by
  cases e with
  | int t => cases t <;> rfl
  | f32 => rfl
  | f64 => rfl
theorem size_pos (e : Elem) : 0 < size e := by
  cases e with
  | int t => cases t <;> decide
  | f32 => decide
  | f64 => decide
theorem pow_size (e : Elem) : 256 ^ size e = 2 ^ e.bits := by
  rw [← size_bits, Nat.pow_mul]
theorem sizeof_size (e : Elem) : sizeof e = size e := by
  cases e with
  | int t => cases t <;> rfl
  | f32 => rfl
  | f64 => rfl

theorem code_lt (v : Val) : code v < 2 ^ (tyVal v).bits := by
  cases v <;> exact BitVec.isLt _

theorem code_ofBits (e : Elem) (b : BitVec e.bits) : code (.ofBits e b) = b.toNat := by
  cases e with
  | int t =>
    show (BitVec.ofInt t.bits (intOfBits t b)).toNat = b.toNat
    unfold intOfBits
    split
    · rw [BitVec.ofInt_toInt]
    · rw [BitVec.ofInt_natCast, BitVec.ofNat_toNat, BitVec.setWidth_eq]
  | f32 => rfl
  | f64 => rfl

theorem tyVal_ofBits (e : Elem) (b : BitVec e.bits) : tyVal (.ofBits e b) = e := by cases e <;> rfl

theorem ofBits_code {v : Val} {e : Elem} (ht : tyVal v = e) (hv : InRange v) : Val.ofBits e (BitVec.ofNat e.bits (code v)) = v := by
  subst ht
  cases v with
  | int t z =>
    show Val.ofBits (.int t) (BitVec.ofNat t.bits (BitVec.ofInt t.bits z).toNat) = _
    rw [BitVec.ofNat_toNat, BitVec.setWidth_eq]
    obtain ⟨b', h1, h2⟩ := (assign_value t t z z).1 (converts_self t z hv)
    cases h1; exact h2
  | f32 b => show Val.f32 (BitVec.ofNat 32 b.toNat) = _; rw [BitVec.ofNat_toNat, BitVec.setWidth_eq]
  | f64 b => show Val.f64 (BitVec.ofNat 64 b.toNat) = _; rw [BitVec.ofNat_toNat, BitVec.setWidth_eq]

theorem inRange_ofBits (e : Elem) (b : BitVec e.bits) : InRange (.ofBits e b) := by
  cases e with
  | int t =>
    have := (assign_value t t (intOfBits t b) (intOfBits t b))
    have h : BitVec.ofInt t.bits (intOfBits t b) = b := BitVec.eq_of_toNat_eq (code_ofBits (.int t) b)
    exact (this.2 ⟨_, rfl, by rw [h]; rfl⟩).1
  | f32 => trivial
  | f64 => trivial

/-- The bytes denote exactly the value with their number as its bit pattern. -/
theorem denotes_iff (e : Elem) (bs : List Byte) (v : Val) :
    Denotes e bs v ↔ bs.length = size e ∧ v = .ofBits e (BitVec.ofNat e.bits (number bs)) := by
  refine and_congr_right fun hl => ?_
  cases e with
  | int t =>
    have e1 : BitVec.ofInt t.bits ((number bs : Nat) : Int) = BitVec.ofNat t.bits (number bs) := BitVec.ofInt_natCast ..
    constructor
    · rintro ⟨z, rfl, hz⟩
      obtain ⟨b', h1, h2⟩ := (assign_value .u64 t _ z).1 hz
      cases h1
      rw [← h2]
      exact congrArg (Val.ofBits (.int t)) e1
    · intro h
      refine ⟨_, h, (assign_value .u64 t _ _).2 ⟨_, rfl, ?_⟩⟩
      exact congrArg (Val.ofBits (.int t)) e1
  | f32 => exact Iff.rfl
  | f64 => exact Iff.rfl

theorem denotes_bytes {e : Elem} {v : Val} (ht : tyVal v = e) (hv : InRange v) : Denotes e (bytes (size e) (code v)) v := by
  refine (denotes_iff e _ v).2 ⟨bytes_length _ _, ?_⟩
  rw [number_bytes, pow_size, Nat.mod_eq_of_lt (ht ▸ code_lt v), ofBits_code ht hv]

theorem denotes_only {e : Elem} {bs : List Byte} {v : Val} (h : Denotes e bs v) :
    bs = bytes (size e) (code v) ∧ tyVal v = e ∧ InRange v := by
  obtain ⟨hl, rfl⟩ := (denotes_iff e bs v).1 h
  refine ⟨?_, tyVal_ofBits _ _, inRange_ofBits _ _⟩
  rw [code_ofBits, BitVec.toNat_ofNat, ← pow_size, ← hl, Nat.mod_eq_of_lt (number_lt bs), bytes_number]

/-! ## Arrays of cells of one size -/

theorem cell_length (n : Nat) (x : Option Nat) : (cell n x).length = n := by
  cases x with
  | none => exact List.length_replicate
  | some v => rw [cell, List.length_map, bytes_length]

theorem flat_cons (n : Nat) (x : Option Nat) (L : List (Option Nat)) : flat n (x :: L) = cell n x ++ flat n L := rfl

theorem flat_length (n : Nat) (L : List (Option Nat)) : (flat n L).length = L.length * n := by
  induction L with
  | nil => rw [flat, List.map_nil, List.flatten_nil, List.length_nil, List.length_nil, Nat.zero_mul]
  | cons x L ih => rw [flat_cons, List.length_append, cell_length, ih, List.length_cons, Nat.add_mul, Nat.one_mul, Nat.add_comm]

theorem slice_flat {n i : Nat} {L : List (Option Nat)} {x : Option Nat} (h : L[i]? = some x) : slice (flat n L) (i * n) n = cell n x := by
  induction L generalizing i with
  | nil => cases h
  | cons y L ih =>
    rw [flat_cons]
    cases i with
    | zero =>
      cases h
      unfold slice
      rw [Nat.zero_mul, List.drop_zero, List.take_left' (cell_length n _)]
    | succ i =>
      rw [← ih h]
      unfold slice
      rw [Nat.succ_mul, Nat.add_comm, ← List.drop_drop, List.drop_left' (cell_length n y)]

theorem splice_flat {n i : Nat} {L : List (Option Nat)} (x : Option Nat) (h : i < L.length) :
    splice (flat n L) (i * n) (cell n x) = flat n (L.set i x) := by
  induction L generalizing i with
  | nil => cases h
  | cons y L ih =>
    unfold splice
    rw [cell_length, flat_cons]
    cases i with
    | zero =>
      rw [Nat.zero_mul, Nat.zero_add, List.take_zero, List.drop_left' (cell_length n y), List.nil_append, List.set_cons_zero, flat_cons]
    | succ i =>
      have := ih (Nat.lt_of_succ_lt_succ h)
      unfold splice at this
      rw [cell_length] at this
      rw [List.set_cons_succ, flat_cons, ← this, Nat.succ_mul, Nat.add_comm (i * n) n, Nat.add_assoc,
        ← List.drop_drop, List.drop_left' (cell_length n y)]
      have e : List.take (n + i * n) (cell n y ++ flat n L) = cell n y ++ List.take (i * n) (flat n L) := by
        rw [List.take_append, cell_length, List.take_of_length_le (by rw [cell_length]; omega), Nat.add_sub_cancel_left]
      rw [e, Nat.add_comm n (i * n), List.append_assoc, List.append_assoc, List.append_assoc]

theorem cell_none {n : Nat} (hn : 0 < n) {x : Option Nat} : none ∈ cell n x ↔ x = none := by
  cases x with
  | none => exact ⟨fun _ => rfl, fun _ => List.mem_replicate.2 ⟨by omega, rfl⟩⟩
  | some v => simp [cell]

theorem flat_none {n : Nat} (hn : 0 < n) (L : List (Option Nat)) : none ∈ flat n L ↔ none ∈ L := by
  unfold flat
  rw [List.mem_flatten]
  constructor
  · rintro ⟨l, h1, h2⟩
    obtain ⟨x, hx, rfl⟩ := List.mem_map.1 h1
    exact (cell_none hn).1 h2 ▸ hx
  · intro h
    exact ⟨_, List.mem_map.2 ⟨none, h, rfl⟩, (cell_none hn).2 rfl⟩

/-! ## Objects -/

theorem lanesOf_length {e : Elem} {n : Nat} (r : Arr e n) : (lanesOf r).length = n := List.length_ofFn

theorem lanesOf_get {e : Elem} {n : Nat} (r : Arr e n) {i : Nat} (h : i < n) : (lanesOf r)[i]? = some ((r ⟨i, h⟩).map BitVec.toNat) := by
  unfold lanesOf
  rw [List.getElem?_eq_getElem (by rw [List.length_ofFn]; exact h), List.getElem_ofFn]

theorem uniform_length {k n : Nat} (f : Fin k → List (Option Nat)) (h : ∀ j, (f j).length = n) : (List.ofFn f).flatten.length = k * n := by
  rw [List.length_flatten]
  have : (List.ofFn f).map List.length = List.replicate k n := by
    apply List.ext_getElem
    · simp
    · intro i h1 h2; simp [h]
  rw [this, List.sum_replicate_nat]

theorem patterns_length {o : Obj} {t : Ty} (h : o.ty = t) (ho : isObject t = true) : (patterns o).length * size (elemOf o) = SpecExec.sizeOf t := by
  subst h
  cases o with
  | sc e v => exact Nat.one_mul _
  | vec e n r => exact congrArg (· * size e) (lanesOf_length r)
  | arr e n k r =>
    show (List.ofFn fun j => lanesOf (r j)).flatten.length * size e = k * (n * size e)
    have := uniform_length (k := k) (n := n) (fun j => lanesOf (r j)) fun j => lanesOf_length _
    exact (congrArg (· * size e) this).trans (Nat.mul_assoc ..)
  | cells e n r => exact congrArg (· * size e) (lanesOf_length r)
  | ptr e p => cases ho
  | obj c => cases ho

theorem image_length {o : Obj} (ho : isObject o.ty = true) : (image o).length = SpecExec.sizeOf o.ty := by
  rw [image, flat_length, patterns_length rfl ho]

/-! ## Names -/

/-- The address of what a name denotes. -/
def addr : Entity → Option Nat
  | .object _ a => some a
  | .pointer _ a _ => some a
  | .instance _ => none

/-- The object is stored in the memory where the name says. -/
inductive Holds (μ : Memory) : Obj → Entity → Prop
  | object (o a) : isObject o.ty = true → Typed o → μ[a]? = some (image o) → Holds μ o (.object o.ty a)
  | ptr (e) (p : Ptr e) (a) : μ[a]? = some (image (.ptr e p)) → Holds μ (.ptr e p) (.pointer e a p.off)
  | obj (c) : Holds μ (.obj c) (.instance c)

theorem holds_addr {μ : Memory} {o : Obj} {n : Entity} (h : Holds μ o n) {a : Nat} (ha : addr n = some a) :
    μ[a]? = some (image o) := by
  cases h <;> cases ha <;> assumption

theorem holds_lt {μ : Memory} {o : Obj} {n : Entity} (h : Holds μ o n) {a : Nat} (ha : addr n = some a) : a < μ.length :=
  (List.getElem?_eq_some_iff.1 (holds_addr h ha)).1

theorem holds_typed {μ : Memory} {o : Obj} {n : Entity} (h : Holds μ o n) : Typed o := by
  cases h
  · assumption
  · trivial
  · trivial

theorem Holds.mono {μ μ' : Memory} {o : Obj} {n : Entity} (h : Holds μ o n) (hm : ∀ a, addr n = some a → μ'[a]? = μ[a]?) : Holds μ' o n := by
  cases h with
  | object o a h1 h2 h3 => exact .object o a h1 h2 (by rw [hm a rfl]; exact h3)
  | ptr e p a h => exact .ptr e p a (by rw [hm a rfl]; exact h)
  | obj c => exact .obj c

/-- The addresses of the names. -/
def addrs (ν : Names) : List Nat := ν.filterMap fun p => addr p.2

theorem mem_addrs {ν : Names} {a : Nat} : a ∈ addrs ν ↔ ∃ p ∈ ν, addr p.2 = some a := List.mem_filterMap

theorem addrs_append (ν ν' : Names) : addrs (ν ++ ν') = addrs ν ++ addrs ν' := List.filterMap_append ..

/-- The variables of the interpreter and the names and memory of the machine agree. -/
structure Rel (ρ : Env) (ν : Names) (μ : Memory) : Prop where
  holds : List.Forall₂ (fun p q => p.1 = q.1 ∧ Holds μ p.2 q.2) ρ ν
  nodup : (addrs ν).Nodup

theorem Rel.nil (μ : Memory) : Rel [] [] μ := ⟨.nil, List.nodup_nil⟩

theorem Rel.length {ρ : Env} {ν : Names} {μ : Memory} (h : Rel ρ ν μ) : ρ.length = ν.length := h.holds.length_eq

theorem Rel.mem {ρ : Env} {ν : Names} {μ : Memory} (h : Rel ρ ν μ) {q} (hq : q ∈ ν) : ∃ o, Holds μ o q.2 := by
  obtain ⟨h, -⟩ := h
  induction h with
  | nil => cases hq
  | cons h1 _ ih =>
    rcases List.mem_cons.1 hq with rfl | hq
    · exact ⟨_, h1.2⟩
    · exact ih hq

theorem Rel.lt {ρ : Env} {ν : Names} {μ : Memory} (h : Rel ρ ν μ) {a : Nat} (ha : a ∈ addrs ν) : a < μ.length := by
  obtain ⟨q, hq, ha⟩ := mem_addrs.1 ha
  obtain ⟨o, ho⟩ := h.mem hq
  exact holds_lt ho ha

theorem Rel.typed {ρ : Env} {ν : Names} {μ : Memory} (h : Rel ρ ν μ) : EnvTyped ρ := by
  obtain ⟨h, -⟩ := h
  induction h with
  | nil => exact fun p hp => absurd hp List.not_mem_nil
  | cons h1 _ ih =>
    intro p hp
    rcases List.mem_cons.1 hp with rfl | hp
    · exact holds_typed h1.2
    · exact ih p hp

theorem Rel.get {ρ : Env} {ν : Names} {μ : Memory} (h : Rel ρ ν μ) {x : Nat} {o : Obj} (hx : ρ.get x = .ok o) :
    ∃ n, ν.lookup x = some n ∧ Holds μ o n := by
  obtain ⟨h, -⟩ := h
  induction h with
  | nil => cases hx
  | @cons p q _ _ h1 _ ih =>
    obtain ⟨y, o'⟩ := p
    obtain ⟨y', n⟩ := q
    obtain ⟨rfl, h2⟩ := h1
    unfold Env.get at hx
    unfold List.lookup
    split at hx
    · rename_i he
      cases hx
      rw [he]
      exact ⟨n, rfl, h2⟩
    · rename_i he
      rw [Bool.not_eq_true] at he
      rw [he]
      exact ih hx

theorem lookup_mem_names {ν : Names} {x : Nat} {n : Entity} (h : ν.lookup x = some n) : (x, n) ∈ ν := by
  induction ν with
  | nil => cases h
  | cons q ν ih =>
    obtain ⟨y, n'⟩ := q
    unfold List.lookup at h
    split at h
    · rename_i he
      cases h
      rw [eq_of_beq he]
      exact List.mem_cons_self ..
    · exact List.mem_cons_of_mem _ (ih h)

theorem lookup_addrs {ν : Names} {x : Nat} {n : Entity} (h : ν.lookup x = some n) {a : Nat} (ha : addr n = some a) : a ∈ addrs ν :=
  mem_addrs.2 ⟨_, lookup_mem_names h, ha⟩

/-- A memory that differs only at other addresses. -/
theorem Rel.mono {ρ : Env} {ν : Names} {μ μ' : Memory} (h : Rel ρ ν μ) (hm : ∀ a ∈ addrs ν, μ'[a]? = μ[a]?) : Rel ρ ν μ' := by
  obtain ⟨h, hn⟩ := h
  refine ⟨?_, hn⟩
  clear hn
  induction h with
  | nil => exact .nil
  | @cons p q _ _ h1 _ ih =>
    refine .cons ⟨h1.1, h1.2.mono fun a ha => hm a (mem_addrs.2 ⟨q, List.mem_cons_self .., ha⟩)⟩ (ih fun a ha => hm a ?_)
    obtain ⟨r, hr, ha⟩ := mem_addrs.1 ha
    exact mem_addrs.2 ⟨r, List.mem_cons_of_mem _ hr, ha⟩

theorem Rel.append {ρ : Env} {ν : Names} {μ : Memory} (h : Rel ρ ν μ) (μ' : Memory) : Rel ρ ν (μ ++ μ') :=
  h.mono fun _ ha => List.getElem?_append_left (h.lt ha)

/-- Replacing an object by one of the same kind. -/
theorem Rel.set {ρ : Env} {ν : Names} {μ : Memory} (h : Rel ρ ν μ) {x : Nat} {o o' : Obj} {n : Entity} {a : Nat}
    (hx : ρ.get x = .ok o) (hn : ν.lookup x = some n) (ha : addr n = some a)
    (ho' : ∀ μ' : Memory, μ'[a]? = some (image o') → Holds μ' o' n) : Rel (ρ.set x o') ν (μ.set a (image o')) := by
  have hlt : a < μ.length := h.lt (lookup_addrs hn ha)
  obtain ⟨h, hd⟩ := h
  refine ⟨?_, hd⟩
  induction h with
  | nil => cases hx
  | @cons p q ρ ν h1 h2 ih =>
    obtain ⟨y, p⟩ := p
    obtain ⟨y', q⟩ := q
    obtain ⟨rfl, h3⟩ := h1
    have hd' : (addrs ν).Nodup := by
      unfold addrs at hd ⊢
      rw [List.filterMap_cons] at hd
      split at hd
      · exact hd
      · exact (List.nodup_cons.1 hd).2
    unfold Env.get at hx
    unfold List.lookup at hn
    unfold Env.set
    split at hx
    · rename_i he
      rw [he] at hn
      cases hn
      rw [if_pos he]
      refine .cons ⟨rfl, ho' _ (List.getElem?_set_self hlt)⟩ ?_
      have : a ∉ addrs ν := by
        unfold addrs at hd
        rw [List.filterMap_cons] at hd
        simp only [ha] at hd
        exact (List.nodup_cons.1 hd).1
      exact ((Rel.mk h2 hd').mono fun b hb => List.getElem?_set_ne (by rintro rfl; exact this hb)).holds
    · rename_i he
      rw [if_neg he]
      rw [Bool.not_eq_true] at he
      rw [he] at hn
      refine .cons ⟨rfl, h3.mono fun b hb => List.getElem?_set_ne ?_⟩ (ih hx hn hd')
      rintro rfl
      unfold addrs at hd
      rw [List.filterMap_cons] at hd
      simp only [hb] at hd
      exact (List.nodup_cons.1 hd).1 (lookup_addrs hn ha)

/-- A new object. -/
theorem Rel.new {ρ : Env} {ν : Names} {μ : Memory} (h : Rel ρ ν μ) (x : Nat) {o : Obj} (ho : isObject o.ty = true) (ht : Typed o) :
    Rel ((x, o) :: ρ) ((x, .object o.ty μ.length) :: ν) (μ ++ [image o]) := by
  have h' := h.append [image o]
  refine ⟨.cons ⟨rfl, .object o _ ho ht ?_⟩ h'.holds, ?_⟩
  · rw [List.getElem?_append_right (Nat.le_refl _), Nat.sub_self]; rfl
  · show (μ.length :: addrs ν).Nodup
    exact List.nodup_cons.2 ⟨fun hm => Nat.lt_irrefl _ (h.lt hm), h.nodup⟩

/-! ## Reading and writing -/

theorem get_cell {e : Elem} {c : Nat} : Val.ofBits e (BitVec.ofNat e.bits (c % 2 ^ e.bits)) = .ofBits e (BitVec.ofNat e.bits c) := by
  congr 1
  apply BitVec.eq_of_toNat_eq
  rw [BitVec.toNat_ofNat, BitVec.toNat_ofNat, Nat.mod_mod]

theorem reads_flat {μ : Memory} {e : Elem} {a i : Nat} {L : List (Option Nat)} {x : Option Nat} (ha : μ[a]? = some (flat (size e) L))
    (hi : L[i]? = some x) : Reads μ ⟨e, a, i * size e⟩ (match x with
      | some c => .ok (.ofBits e (BitVec.ofNat e.bits c))
      | none => .ub .indeterminateRead) := by
  cases x with
  | none =>
    refine .indeterminate e a _ _ ha ?_
    rw [slice_flat hi]
    exact (cell_none (size_pos e)).2 rfl
  | some c =>
    refine .value e a _ _ (bytes (size e) c) _ ha (slice_flat hi) ((denotes_iff ..).2 ⟨bytes_length _ _, ?_⟩)
    rw [number_bytes, pow_size, get_cell]

theorem writes_flat {μ : Memory} {e : Elem} {a i : Nat} {L : List (Option Nat)} (ha : μ[a]? = some (flat (size e) L))
    (hi : i < L.length) {v : Val} (ht : tyVal v = e) (hv : InRange v) :
    Writes μ ⟨e, a, i * size e⟩ v (μ.set a (flat (size e) (L.set i (some (code v))))) := by
  rw [← splice_flat _ hi]
  refine .mk e a _ _ (bytes (size e) (code v)) v ha ?_ (denotes_bytes ht hv)
  rw [flat_length, ← Nat.succ_mul]
  exact Nat.mul_le_mul_right _ hi

end Verif.Props
