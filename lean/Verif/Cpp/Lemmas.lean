import Verif.Cpp.Attr
import Verif.Cpp.Sem
import Verif.Lemmas

/-!
# Symbolic execution of syntax trees

Rewrite rules (`cpp`) that execute the interpreter on a concrete syntax tree
with symbolic arguments, and the simulation of the interpreter's loops by the
loops of the model.
-/

namespace Verif.Cpp

variable [Dialect]

attribute [cpp] ok_bind ub_bind abort_bind pure_eq map_eq bind_assoc ite_bind

/-! ## Variables -/

omit [Dialect] in
@[cpp] theorem get_cons (x y : Nat) (o : Obj) (ρ : Env) :
    Env.get x ((y, o) :: ρ) = if x == y then .ok o else Env.get x ρ := rfl
omit [Dialect] in
@[cpp] theorem set_cons (x y : Nat) (o p : Obj) (ρ : Env) :
    Env.set x o ((y, p) :: ρ) = if x == y then (y, o) :: ρ else (y, p) :: Env.set x o ρ := rfl

attribute [cpp] Obj.val Obj.lane Obj.lane2 Obj.elem Obj.setVal Obj.setLane Obj.setLane2 Obj.setElem
  Obj.ofVec Obj.ofVecArr Obj.ofInt Obj.ofScalar Obj.ofPtr
  run bindArgs memory sizeof fresh copy store binary eval typ common tyVal

omit [Dialect] in
@[cpp] theorem idx_int (t : ITy) (v : Int) : Val.idx (.int t v) = v := rfl
omit [Dialect] in
@[cpp] theorem isInt_int (t : ITy) (v : Int) : Val.isInt (.int t v) = true := rfl
omit [Dialect] in
@[cpp] theorem isInt_ofBits (t : ITy) (b : BitVec t.bits) : Val.isInt (.ofBits (.int t) b) = true := rfl
omit [Dialect] in
@[cpp] theorem truth_ofBool (b : Bool) : (ofBool b).truth = b := by
  cases b <;> rfl

/-! ## Registers -/

omit [Dialect] in
@[cpp] theorem get_ofVec {e n} (a : Vec e n) (i : Int) : (Arr.ofVec a).get i = a.get i := by
  simp only [Arr.get, Arr.ofVec, Vec.get]
omit [Dialect] in
@[cpp] theorem get_ofVecArr {e n k} (a : VecArr e n k) (j i : Int) :
    arr2Get (ofRegs a) j i = a.get j i := by
  simp only [arr2Get, ofRegs, VecArr.get, get_ofVec]
omit [Dialect] in
@[cpp] theorem full_ofVec {e n} (a : Vec e n) : full (Arr.ofVec a) = .ok a := by
  simp [full, Arr.ofVec]

/-! ## Statements -/

omit [Dialect] in
@[cpp] theorem ty_sc (e v) : (Obj.sc e v).ty = .sc e := rfl
omit [Dialect] in
@[cpp] theorem ty_vec (e n r) : (Obj.vec e n r).ty = .vec e n := rfl
omit [Dialect] in
@[cpp] theorem ty_arr (e n k r) : (Obj.arr e n k r).ty = .arr e n k := rfl
omit [Dialect] in
@[cpp] theorem ty_ptr (e p) : (Obj.ptr e p).ty = .ptr e := rfl
omit [Dialect] in
@[cpp] theorem result_sc (e v) : result (.sc e v) = .ok (.sc e v) := rfl
omit [Dialect] in
@[cpp] theorem result_vec (e n r) : result (.vec e n r) = r.ret >>= fun v => .ok (.vec e n (Arr.ofVec v)) := rfl
omit [Dialect] in
@[cpp] theorem result_arr (e n k r) : result (.arr e n k r) = r.ret >>= fun v => .ok (.arr e n k (ofRegs v)) := rfl
omit [Dialect] in
@[cpp] theorem finish_ret (t ps o) : (Flow.ret o).finish t ps = result o := rfl
omit [Dialect] in
@[cpp] theorem finish_next (ps ρ) : (Flow.next ρ).finish .void ps = memory ps ρ := rfl
omit [Dialect] in
@[cpp] theorem andThen_next (ρ k) : (Flow.next ρ).andThen k = k ρ := rfl
omit [Dialect] in
@[cpp] theorem andThen_ret (o k) : (Flow.ret o).andThen k = .ok (.ret o) := rfl
omit [Dialect] in
@[cpp] theorem leave_next (n ρ) : (Flow.next ρ).leave n = .next (ρ.drop (ρ.length - n)) := rfl
omit [Dialect] in
@[cpp] theorem leave_ret (n o) : (Flow.ret o).leave n = .ret o := rfl
attribute [cpp] Stmt.declares Bool.or_false
attribute [cpp] List.length_cons List.length_nil List.drop_succ_cons List.drop_zero Nat.sub_self

@[cpp] theorem exec_skip (Γ fuel fn t ρ) : exec Γ fuel fn t .skip ρ = .ok (.next ρ) := rfl
@[cpp] theorem exec_die (Γ fuel fn t fmt s ρ) :
    exec Γ fuel fn t (.seq (.fprintf fmt) (.seq .abort s)) ρ = .abort (text (format fn fmt)) := rfl
@[cpp] theorem exec_seq_decl (Γ fuel fn t t' x e b ρ) : exec Γ fuel fn t (.seq (.decl t' x e) b) ρ =
    (exec Γ fuel fn t (.decl t' x e) ρ >>= fun r => r.andThen fun ρ => exec Γ fuel fn t b ρ) := rfl
@[cpp] theorem exec_seq_assign (Γ fuel fn t l e b ρ) : exec Γ fuel fn t (.seq (.assign l e) b) ρ =
    (exec Γ fuel fn t (.assign l e) ρ >>= fun r => r.andThen fun ρ => exec Γ fuel fn t b ρ) := rfl
@[cpp] theorem exec_seq_loop (Γ fuel fn t i c s a b ρ) : exec Γ fuel fn t (.seq (.loop i c s a) b) ρ =
    (exec Γ fuel fn t (.loop i c s a) ρ >>= fun r => r.andThen fun ρ => exec Γ fuel fn t b ρ) := rfl
@[cpp] theorem exec_seq_ite (Γ fuel fn t c a a' b ρ) : exec Γ fuel fn t (.seq (.ite c a a') b) ρ =
    (exec Γ fuel fn t (.ite c a a') ρ >>= fun r => r.andThen fun ρ => exec Γ fuel fn t b ρ) := rfl
@[cpp] theorem exec_seq_ret (Γ fuel fn t e b ρ) : exec Γ fuel fn t (.seq (.ret e) b) ρ =
    (exec Γ fuel fn t (.ret e) ρ >>= fun r => r.andThen fun ρ => exec Γ fuel fn t b ρ) := rfl
@[cpp] theorem exec_seq_skip (Γ fuel fn t b ρ) : exec Γ fuel fn t (.seq .skip b) ρ = exec Γ fuel fn t b ρ := rfl
@[cpp] theorem exec_seq_block (Γ fuel fn t a b ρ) : exec Γ fuel fn t (.seq (.block a) b) ρ =
    (exec Γ fuel fn t (.block a) ρ >>= fun r => r.andThen fun ρ => exec Γ fuel fn t b ρ) := rfl
@[cpp] theorem exec_seq_memcpy (Γ fuel fn t d s e n b ρ) : exec Γ fuel fn t (.seq (.memcpy d s e n) b) ρ =
    (exec Γ fuel fn t (.memcpy d s e n) ρ >>= fun r => r.andThen fun ρ => exec Γ fuel fn t b ρ) := rfl
@[cpp] theorem exec_block (Γ fuel fn t s ρ) : exec Γ fuel fn t (.block s) ρ =
    (exec Γ fuel fn t s ρ >>= fun r => .ok (r.leave ρ.length)) := by
  simp only [exec, pure_eq]
@[cpp] theorem exec_decl (Γ fuel fn t t' x ρ) : exec Γ fuel fn t (.decl t' x none) ρ =
    (fresh t' >>= fun o => .ok (.next ((x, o) :: ρ))) := by
  simp only [exec, pure_eq]
@[cpp] theorem exec_init (Γ fuel fn t t' x e ρ) : exec Γ fuel fn t (.decl t' x (some e)) ρ =
    (eval ρ e >>= fun v => fresh t' >>= fun o => o.setVal v >>= fun o => .ok (.next ((x, o) :: ρ))) := by
  simp only [exec, pure_eq]
@[cpp] theorem exec_assign (Γ fuel fn t l e ρ) : exec Γ fuel fn t (.assign l e) ρ =
    (eval ρ e >>= fun v => store ρ l v >>= fun ρ => .ok (.next ρ)) := by
  simp only [exec, pure_eq]
@[cpp] theorem exec_ite (Γ fuel fn t c a b ρ) : exec Γ fuel fn t (.ite c a b) ρ =
    if a.declares || b.declares then illFormed
    else (eval ρ c >>= fun v => if v.truth then exec Γ fuel fn t a ρ else exec Γ fuel fn t b ρ) := by
  simp only [exec]
@[cpp] theorem exec_memcpy (Γ fuel fn t d s e n ρ) : exec Γ fuel fn t (.memcpy d s e n) ρ =
    (ρ.get d >>= fun d' => ρ.get s >>= fun s' => copy d' s' (sizeof e * n) >>= fun o => .ok (.next (ρ.set d o))) := by
  simp only [exec, pure_eq]
@[cpp] theorem exec_ret_sc (Γ fuel fn t e ρ) : exec Γ fuel fn (.sc t) (.ret e) ρ =
    (eval ρ e >>= fun v => v.toBits t >>= fun b => .ok (.ret (.sc t (some (.ofBits t b))))) := by
  simp only [exec, pure_eq]
@[cpp] theorem exec_ret_vec (Γ fuel fn e n x ρ) : exec Γ fuel fn (.vec e n) (.ret (.var x)) ρ =
    (ρ.get x >>= fun o => if o.ty = .vec e n then .ok (.ret o) else illFormed) := by
  simp only [exec, pure_eq]
@[cpp] theorem exec_ret_arr (Γ fuel fn e n k x ρ) : exec Γ fuel fn (.arr e n k) (.ret (.var x)) ρ =
    (ρ.get x >>= fun o => if o.ty = .arr e n k then .ok (.ret o) else illFormed) := by
  simp only [exec, pure_eq]

@[cpp] theorem exec_seq_memcpySc (Γ fuel fn t d s e b ρ) : exec Γ fuel fn t (.seq (.memcpySc d s e) b) ρ =
    (exec Γ fuel fn t (.memcpySc d s e) ρ >>= fun r => r.andThen fun ρ => exec Γ fuel fn t b ρ) := rfl
@[cpp] theorem exec_seq_call (Γ fuel fn t f as b ρ) : exec Γ fuel fn t (.seq (.call f as) b) ρ =
    (exec Γ fuel fn t (.call f as) ρ >>= fun r => r.andThen fun ρ => exec Γ fuel fn t b ρ) := rfl
@[cpp] theorem exec_seq_declCall (Γ fuel fn t t' x f as b ρ) : exec Γ fuel fn t (.seq (.declCall t' x f as) b) ρ =
    (exec Γ fuel fn t (.declCall t' x f as) ρ >>= fun r => r.andThen fun ρ => exec Γ fuel fn t b ρ) := rfl
@[cpp] theorem exec_seq_assignCall (Γ fuel fn t l f as b ρ) : exec Γ fuel fn t (.seq (.assignCall l f as) b) ρ =
    (exec Γ fuel fn t (.assignCall l f as) ρ >>= fun r => r.andThen fun ρ => exec Γ fuel fn t b ρ) := rfl
@[cpp] theorem exec_seq_construct (Γ fuel fn t c x as b ρ) : exec Γ fuel fn t (.seq (.construct c x as) b) ρ =
    (exec Γ fuel fn t (.construct c x as) ρ >>= fun r => r.andThen fun ρ => exec Γ fuel fn t b ρ) := rfl
@[cpp] theorem exec_seq_retConv (Γ fuel fn t e x b ρ) : exec Γ fuel fn t (.seq (.retConv e x) b) ρ =
    (exec Γ fuel fn t (.retConv e x) ρ >>= fun r => r.andThen fun ρ => exec Γ fuel fn t b ρ) := rfl
@[cpp] theorem exec_memcpySc (Γ fuel fn t d s e ρ) : exec Γ fuel fn t (.memcpySc d s e) ρ =
    (ρ.get d >>= fun d' => ρ.get s >>= fun s' => copySc d' s' (sizeof e) >>= fun o => .ok (.next (ρ.set d o))) := by
  simp only [exec, pure_eq]
@[cpp] theorem exec_call (Γ fuel fn t f as ρ) : exec Γ fuel fn t (.call f as) ρ =
    (Γ.call f as ρ >>= fun r => .ok (.next r.2)) := by
  simp only [exec, pure_eq]
@[cpp] theorem exec_declCall (Γ fuel fn t t' x f as ρ) : exec Γ fuel fn t (.declCall t' x f as) ρ =
    (Γ.call f as ρ >>= fun r => fresh t' >>= fun o => returned r.1 >>= fun v => o.setVal v >>= fun o =>
      .ok (.next ((x, o) :: r.2))) := by
  simp only [exec, pure_eq]
@[cpp] theorem exec_assignCall (Γ fuel fn t l f as ρ) : exec Γ fuel fn t (.assignCall l f as) ρ =
    (Γ.call f as ρ >>= fun r => returned r.1 >>= fun v => store r.2 l v >>= fun ρ => .ok (.next ρ)) := by
  simp only [exec, pure_eq]
@[cpp] theorem exec_construct (Γ fuel fn t c x as ρ) : exec Γ fuel fn t (.construct c x as) ρ =
    (Γ.construct c x as ρ >>= fun ρ => .ok (.next ρ)) := by
  simp only [exec, pure_eq]
@[cpp] theorem exec_retConv (Γ fuel fn t e x ρ) : exec Γ fuel fn (.sc t) (.retConv e x) ρ =
    (Γ.convert e x ρ >>= fun v => v.toBits t >>= fun b => .ok (.ret (.sc t (some (.ofBits t b))))) := by
  simp only [exec, pure_eq]
attribute [cpp] returned

/-! ## Index arithmetic -/

omit [Dialect] in
theorem conv_u64 {v : Int} (h : 0 ≤ v ∧ v ≤ 2147483647) : ITy.conv .i32 .u64 v = v := by
  simp only [ITy.conv, ITy.lo, ITy.hi, ITy.wrap, ITy.signed]
  simp
  exact Int.emod_eq_of_lt h.1 (by show v < 18446744073709551616; omega)

attribute [cpp] vint

@[cpp] theorem add_ii {x y : Int} (h : -2147483648 ≤ x + y ∧ x + y ≤ 2147483647) :
    Val.add (.int .i32 x) (.int .i32 y) = .ok (.int .i32 (x + y)) := mkInt_i32 h
@[cpp] theorem sub_ii {x y : Int} (h : -2147483648 ≤ x - y ∧ x - y ≤ 2147483647) :
    Val.sub (.int .i32 x) (.int .i32 y) = .ok (.int .i32 (x - y)) := mkInt_i32 h
@[cpp] theorem mul_ii {x y : Int} (h : -2147483648 ≤ x * y ∧ x * y ≤ 2147483647) :
    Val.mul (.int .i32 x) (.int .i32 y) = .ok (.int .i32 (x * y)) := mkInt_i32 h
omit [Dialect] in
@[cpp] theorem div_ii {x y : Int} (hx : 0 ≤ x ∧ x ≤ 2147483647) (hy : 0 < y) :
    Val.div (.int .i32 x) (.int .i32 y) = .ok (.int .i32 (x / y)) := by
  have h1 : 0 ≤ x / y := Int.ediv_nonneg hx.1 (by omega)
  have h2 : x / y ≤ x := Int.ediv_le_self _ hx.1
  show (if y = 0 then _ else mkQuot .i32 (x.tdiv y) (x.tdiv y)) = _
  rw [if_neg (by omega), Int.tdiv_eq_ediv_of_nonneg hx.1]
  exact if_pos (show -2147483648 ≤ x / y ∧ x / y ≤ 2147483647 by omega)

omit [Dialect] in
@[cpp] theorem mod_ii {x y : Int} (hx : 0 ≤ x ∧ x ≤ 2147483647) (hy : 0 < y) :
    mod (.int .i32 x) (.int .i32 y) = .ok (.int .i32 (x % y)) := by
  have h1 : 0 ≤ x / y := Int.ediv_nonneg hx.1 (by omega)
  have h2 : x / y ≤ x := Int.ediv_le_self _ hx.1
  show (if y = 0 then _ else mkQuot .i32 (x.tdiv y) (x.tmod y)) = _
  rw [if_neg (by omega), Int.tdiv_eq_ediv_of_nonneg hx.1, Int.tmod_eq_emod_of_nonneg hx.1]
  exact if_pos (show -2147483648 ≤ x / y ∧ x / y ≤ 2147483647 by omega)
omit [Dialect] in
@[cpp] theorem dbl_two : (Val.int .i64 (2 : Nat)).toF64 = 0x4000000000000000#64 := by decide +kernel

theorem add_u64 {s t : ITy} {x y : Int} (hs : s.uac t = .u64) (hx : s.conv .u64 x = x) (hy : t.conv .u64 y = y)
    (h : 0 ≤ x + y ∧ x + y < 18446744073709551616) :
    Val.add (.int s x) (.int t y) = .ok (.int .u64 (x + y)) := by
  show mkInt (s.uac t) (s.conv (s.uac t) x + t.conv (s.uac t) y) = _
  rw [hs, hx, hy, mkInt_u64, umod64 h]
theorem sub_u64 {s t : ITy} {x y : Int} (hs : s.uac t = .u64) (hx : s.conv .u64 x = x) (hy : t.conv .u64 y = y)
    (h : 0 ≤ x - y ∧ x - y < 18446744073709551616) :
    Val.sub (.int s x) (.int t y) = .ok (.int .u64 (x - y)) := by
  show mkInt (s.uac t) (s.conv (s.uac t) x - t.conv (s.uac t) y) = _
  rw [hs, hx, hy, mkInt_u64, umod64 h]
theorem mul_u64 {s t : ITy} {x y : Int} (hs : s.uac t = .u64) (hx : s.conv .u64 x = x) (hy : t.conv .u64 y = y)
    (h : 0 ≤ x * y ∧ x * y < 18446744073709551616) :
    Val.mul (.int s x) (.int t y) = .ok (.int .u64 (x * y)) := by
  show mkInt (s.uac t) (s.conv (s.uac t) x * t.conv (s.uac t) y) = _
  rw [hs, hx, hy, mkInt_u64, umod64 h]
@[cpp] theorem add_ui {x y : Int} (hy : 0 ≤ y ∧ y ≤ 2147483647) (h : 0 ≤ x + y ∧ x + y < 18446744073709551616) :
    Val.add (.int .u64 x) (.int .i32 y) = .ok (.int .u64 (x + y)) := add_u64 rfl rfl (conv_u64 hy) h
@[cpp] theorem add_iu {x y : Int} (hx : 0 ≤ x ∧ x ≤ 2147483647) (h : 0 ≤ x + y ∧ x + y < 18446744073709551616) :
    Val.add (.int .i32 x) (.int .u64 y) = .ok (.int .u64 (x + y)) := add_u64 rfl (conv_u64 hx) rfl h
@[cpp] theorem sub_ui {x y : Int} (hy : 0 ≤ y ∧ y ≤ 2147483647) (h : 0 ≤ x - y ∧ x - y < 18446744073709551616) :
    Val.sub (.int .u64 x) (.int .i32 y) = .ok (.int .u64 (x - y)) := sub_u64 rfl rfl (conv_u64 hy) h
@[cpp] theorem sub_iu {x y : Int} (hx : 0 ≤ x ∧ x ≤ 2147483647) (h : 0 ≤ x - y ∧ x - y < 18446744073709551616) :
    Val.sub (.int .i32 x) (.int .u64 y) = .ok (.int .u64 (x - y)) := sub_u64 rfl (conv_u64 hx) rfl h
@[cpp] theorem mul_ui {x y : Int} (hy : 0 ≤ y ∧ y ≤ 2147483647) (h : 0 ≤ x * y ∧ x * y < 18446744073709551616) :
    Val.mul (.int .u64 x) (.int .i32 y) = .ok (.int .u64 (x * y)) := mul_u64 rfl rfl (conv_u64 hy) h
@[cpp] theorem mul_iu {x y : Int} (hx : 0 ≤ x ∧ x ≤ 2147483647) (h : 0 ≤ x * y ∧ x * y < 18446744073709551616) :
    Val.mul (.int .i32 x) (.int .u64 y) = .ok (.int .u64 (x * y)) := mul_u64 rfl (conv_u64 hx) rfl h

omit [Dialect] in
@[cpp] theorem lt_ii (x y : Int) : Val.lt (.int .i32 x) (.int .i32 y) = decide (x < y) := rfl
omit [Dialect] in
@[cpp] theorem gt_ii (x y : Int) : Val.gt (.int .i32 x) (.int .i32 y) = decide (x > y) := rfl
omit [Dialect] in
@[cpp] theorem eq_ii (x y : Int) : Val.eq (.int .i32 x) (.int .i32 y) = decide (x = y) := rfl
omit [Dialect] in
@[cpp] theorem lt_ui {x y : Int} (hy : 0 ≤ y ∧ y ≤ 2147483647) :
    Val.lt (.int .u64 x) (.int .i32 y) = decide (x < y) := by
  show decide (x < ITy.conv .i32 .u64 y) = _
  rw [conv_u64 hy]
omit [Dialect] in
@[cpp] theorem cmp_ii (f g) (x y : Int) : Val.cmp f g (.int .i32 x) (.int .i32 y) = f x y := rfl

/-! ## Loops -/

omit [Dialect] in
/-- Simulation of a loop of the interpreter by a loop of the model. -/
theorem iterate_cfor {σ} (emb : Int → σ → Env) {lo hi step : Int} (hs : 0 < step)
    {c : Env → C Val} {inc body : Env → C Flow} {body' : Int → σ → C σ}
    (hc : ∀ i s, lo ≤ i → i < hi + step → c (emb i s) = .ok (ofBool (decide (i < hi))))
    (hb : ∀ i s, lo ≤ i → i < hi → body (emb i s) = body' i s >>= fun s => .ok (.next (emb i s)))
    (hn : ∀ i s, lo ≤ i → i < hi → inc (emb i s) = .ok (.next (emb (i + step) s)))
    {n : Nat} (out : σ → Env) (hl : ∀ i s, (Flow.next (emb i s)).leave n = .next (out s)) :
    ∀ (fuel : Nat) (i : Int) (s : σ), lo ≤ i → i < hi + step → hi - i < fuel → 0 < fuel →
      (iterate c inc body fuel (emb i s) >>= fun r => .ok (r.leave n)) =
        cfor i hi step s body' >>= fun s => .ok (.next (out s))
  | 0, i, s, h1, h2, h3, h4 => by omega
  | fuel + 1, i, s, h1, h2, h3, h4 => by
    rw [iterate, hc i s h1 h2, ok_bind, truth_ofBool, cfor_unfold _ _ _ _ _ hs]
    by_cases h : i < hi
    · simp only [h, decide_true, ↓reduceIte, hb i s h1 h, bind_assoc]
      congr 1; funext s'
      simp only [ok_bind, Flow.andThen, hn i s' h1 h]
      exact iterate_cfor emb hs hc hb hn out hl fuel (i + step) s' (by omega) (by omega) (by omega) (by omega)
    · simp [h, ok_bind, hl]

/-- A loop `for (T x = lo; x < e; x += step) body` where `T` is `int` or `size_t` and `e` is constant. -/
theorem loop_bind {σ β} (out : σ → Env) {Γ : Calls} {fuel : Nat} {fn : List Nat} {t : Ty} {it : ITy} {x : Nat} {lo hi step : Int}
    {body : Stmt} {e : Expr} {k₁ : Flow → C β} {k₂ : σ → C β} {body' : Int → σ → C σ} {s₀ : σ} {ρ : Env}
    (hd : body.declares = false) (hit : it = .i32 ∨ it = .u64) (hlo : 0 ≤ lo) (hlh : lo ≤ hi) (hhi : hi + step ≤ 1000) (hs : 0 < step) (hf : 1000 ≤ fuel)
    (h₀ : ρ = out s₀) (hl : ∀ s, (out s).length = ρ.length)
    (he : ∀ i s, eval ((x, .sc (.int it) (some (.int it i))) :: out s) e = .ok (.int .i32 hi))
    (hb : ∀ i s, lo ≤ i → i < hi → exec Γ fuel fn t body ((x, .sc (.int it) (some (.int it i))) :: out s) =
      body' i s >>= fun s => .ok (.next ((x, .sc (.int it) (some (.int it i))) :: out s)))
    (hk : ∀ s, k₁ (.next (out s)) = k₂ s) :
    (exec Γ fuel fn t (.loop (.decl (.sc (.int it)) x (some (.num .i32 lo))) (.bin .lt (.var x) e)
      (.assign (.var x) (.bin .add (.var x) (.num .i32 step))) body) ρ >>= k₁) =
    (cfor lo hi step s₀ body' >>= k₂) := by
  have key := iterate_cfor (fun i s => (x, .sc (.int it) (some (.int it i))) :: out s)
    (c := fun ρ => eval ρ (.bin .lt (.var x) e))
    (inc := exec Γ fuel fn t (.assign (.var x) (.bin .add (.var x) (.num .i32 step))))
    (lo := lo) (hi := hi) hs
    (by
      intro i s h1 h2
      rcases hit with rfl | rfl
      · simp only [cpp, he, beq_self_eq_true, ↓reduceIte, Val.lt, Val.cmp]
        simp [ITy.uac, ITy.promote, ITy.conv]
      · simp only [cpp, he, beq_self_eq_true, ↓reduceIte, Val.lt, Val.cmp]
        simp [ITy.uac, ITy.promote, conv_u64 (v := hi) (by omega)]
        simp [ITy.conv])
    hb
    (by
      intro i s h1 h2
      rcases hit with rfl | rfl
      · simp only [cpp, beq_self_eq_true, ↓reduceIte, Val.add, Val.arith, Val.cast]
        simp [ITy.uac, ITy.promote, ITy.conv]
        rw [mkInt_i32 (by omega)]
        simp [ok_bind, cpp]
      · simp only [cpp, beq_self_eq_true, ↓reduceIte, Val.add, Val.arith, Val.cast]
        simp [ITy.uac, ITy.promote, conv_u64 (v := step) (by omega)]
        rw [mkInt_u64]
        simp [ok_bind, cpp, ITy.conv]
        omega)
    (n := ρ.length) out (by intro i s; simp [Flow.leave, hl]) fuel lo s₀ (by omega) (by omega) (by omega) (by omega)
  have h : exec Γ fuel fn t (.loop (.decl (.sc (.int it)) x (some (.num .i32 lo))) (.bin .lt (.var x) e)
      (.assign (.var x) (.bin .add (.var x) (.num .i32 step))) body) ρ =
      iterate (fun ρ => eval ρ (.bin .lt (.var x) e))
        (exec Γ fuel fn t (.assign (.var x) (.bin .add (.var x) (.num .i32 step)))) (exec Γ fuel fn t body) fuel
        ((x, .sc (.int it) (some (.int it lo))) :: out s₀) >>= fun r => .ok (r.leave ρ.length) := by
    rw [exec, hd, Stmt.declares, Bool.or_false, if_neg Bool.false_ne_true, exec_init, eval, ok_bind, fresh, ok_bind, Obj.setVal, ← h₀]
    rcases hit with rfl | rfl
    · simp [Val.cast, ITy.conv, ok_bind, pure_eq, Flow.andThen]
    · simp [Val.cast, conv_u64 (v := lo) (by omega), ok_bind, pure_eq, Flow.andThen]
  rw [h, key, bind_assoc]
  congr 1; funext s
  rw [ok_bind, hk]

omit [Dialect] in
theorem if_or {α} (p q : Prop) [Decidable p] [Decidable q] (x y : α) :
    (if p ∨ q then x else y) = if p then x else if q then x else y := by
  by_cases p <;> by_cases q <;> simp_all
omit [Dialect] in
theorem if_and {α} (p q : Prop) [Decidable p] [Decidable q] (x y : α) :
    (if p ∧ q then x else y) = if p then if q then x else y else y := by
  by_cases p <;> by_cases q <;> simp_all
omit [Dialect] in
theorem bind_congr' {α β} {x : C α} {f g : α → C β} (h : ∀ a, f a = g a) : (x >>= f) = (x >>= g) :=
  congrArg _ (funext h)

omit [Dialect] in
/-- A lane of a register of bytes is a byte. -/
theorem get_byte {n : Nat} (a : Vec .u8 n) {i : Int} (h1 : 0 ≤ i) (h2 : i < n) :
    ∃ v : Int, (0 ≤ v ∧ v ≤ 255) ∧ a.get i = .ok (.int .u8 v) := by
  refine ⟨(a.lane ⟨i.toNat, by omega⟩).toNat, ?_, ?_⟩
  · have := (a.lane ⟨i.toNat, by omega⟩).isLt
    simp only [Elem.bits, ITy.bits] at this
    omega
  · rw [Vec.get, dif_pos ⟨h1, h2⟩]; rfl
omit [Dialect] in
@[cpp] theorem cast_byte (v : Int) :
    Val.cast (.int .i32) (.int .u8 v) = .ok (.int .i32 v) := rfl

omit [Dialect] in
@[cpp] theorem get_isInt {α : Type} {t : ITy} {n : Nat} (a : Vec (.int t) n) (i : Int) (f g : Val → C α) :
    (a.get i >>= fun v => if v.isInt = true then f v else g v) = (a.get i >>= f) := by
  unfold Vec.get
  split <;> rfl
@[cpp] theorem sub_isInt {α : Type} (s t : ITy) (x y : Int) (f g : Val → C α) :
    (Val.sub (.int s x) (.int t y) >>= fun v => if v.isInt = true then f v else g v) = (Val.sub (.int s x) (.int t y) >>= f) := by
  unfold Val.sub Val.arith mkInt
  simp only
  split
  · rfl
  · split <;> rfl
attribute [cpp] Bool.true_and

/-- Execute. -/
macro "cpp_simp" : tactic => `(tactic| simp -implicitDefEqProofs (maxSteps := 1000000) (disch := omega) only
  [cpp, ↓reduceIte, Nat.reduceBEq, Bool.false_eq_true, Bool.not_eq_true', decide_eq_true_eq, decide_eq_false_iff_not,
   cAnd, cOr, if_or, if_and, ite_not, ge_iff_le, gt_iff_lt,
   Nat.reduceMul, Nat.reduceDiv, Nat.reduceAdd, Nat.reduceSub, Int.reduceMul, Int.reduceDiv, Int.reduceAdd, Int.reduceSub])
/-- Execute one loop; the term gives the variables in scope in terms of the loop state. -/
macro "cpp_loop" out:term : tactic => `(tactic|
  refine loop_bind $out rfl (by decide) (by first | decide | omega) (by first | decide | omega) (by first | decide | omega) (by first | decide | omega)
    (by assumption) rfl (fun _ => rfl) (fun _ _ => by first | rfl | cpp_simp) ?_ ?_)

/-- The same loop-free prefix on both sides. -/
macro "cpp_bind" x:ident : tactic => `(tactic| refine bind_congr' fun $x => ?_)
/-- Body of a loop. -/
macro "cpp_body" : tactic => `(tactic| (cpp_simp; try rfl))
/-- Body of a loop that reads a byte `a.val[i]` and uses it as an index. -/
macro "cpp_byte" a:ident : tactic => `(tactic| (
  obtain ⟨v, hv, e⟩ := get_byte $a ‹_› ‹_›
  cpp_simp
  simp -implicitDefEqProofs only [e, ok_bind, cast_byte]
  cpp_simp
  repeat' split
  all_goals first | rfl | (cpp_simp; rfl)))
/-- A check `if (c) { fprintf(...); abort(); }`. -/
macro "cpp_check" : tactic => `(tactic| (repeat' split) <;> try first | exact congrArg C.abort (by decide +kernel) | (exfalso; omega))

end Verif.Cpp
