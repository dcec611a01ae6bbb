#!/usr/bin/env python3
"""Generates Verif/Tables.lean: evaluation rules for the C++ operators at concrete types."""
T={'i8':(8,1),'u8':(8,0),'i16':(16,1),'u16':(16,0),'i32':(32,1),'u32':(32,0),'i64':(64,1),'u64':(64,0)}
def rng(t):
    w,s=T[t]; return (-2**(w-1),2**(w-1)-1) if s else (0,2**w-1)
def promote(t): return 'i32' if T[t][0]<32 else t
def uac(a,b):
    a,b=promote(a),promote(b)
    for t in ('u64','i64','u32'):
        if t in (a,b): return t
    return 'i32'
def fits(s,t): return rng(t)[0]<=rng(s)[0] and rng(s)[1]<=rng(t)[1]
def wrap(t,v):
    w,s=T[t]; return f"(Int.bmod {v} {2**w})" if s else f"({v} % {2**w})"
def conv(s,t,v): return v if fits(s,t) else wrap(t,v)
L=["import Verif.Attr","import Verif.Types","","/-! Evaluation rules for the C++ operators at concrete types (generated by","`tools/gen_tables.py`); every rule holds by definition. -/","","namespace Verif","",""]
def th(name,stmt):
    if name[:4] in ("add_","sub_","mul_","div_"): name=name.replace(" "," [Dialect] ",1)
    L.append(f"@[csem] theorem {name} : {stmt} := by rfl")
for t,(w,s) in T.items():
    th(f"ofBits_{t} (b : BitVec {w})", f"Val.ofBits (.int .{t}) b = .int .{t} {'b.toInt' if s else '(b.toNat : Int)'}")
    th(f"not_{t} (x : Int)", f"Val.not (.int .{t} x) = .ok (.int .{promote(t)} (intOfBits .{promote(t)} (~~~ BitVec.ofInt {T[promote(t)][0]} x)))")
    th(f"truth_{t} (x : Int)", f"Val.truth (.int .{t} x) = decide (x ≠ 0)")
    th(f"intOfBits_{t} (b : BitVec {w})", f"intOfBits .{t} b = {'b.toInt' if s else '(b.toNat : Int)'}")
    th(f"idx_{t} (x : Int)", f"Val.idx (.int .{t} x) = x")
    th(f"cast_{t}_f32 (x : Int)", f"Val.cast .f32 (.int .{t} x) = .ok (.f32 (BitVec.ofNat 32 (Fmt.b32.ofInt x)))")
    th(f"cast_{t}_f64 (x : Int)", f"Val.cast .f64 (.int .{t} x) = .ok (.f64 (BitVec.ofNat 64 (Fmt.b64.ofInt x)))")
    for t2,(w2,s2) in T.items():
        u=uac(t,t2)
        x,y=conv(t,u,'x'),conv(t2,u,'y')
        for op,o in (('add','+'),('sub','-'),('mul','*')):
            th(f"{op}_{t}_{t2} (x y : Int)", f"Val.{op} (.int .{t} x) (.int .{t2} y) = mkInt .{u} ({x} {o} {y})")
        for op,o in (('and','&&&'),('or','|||'),('xor','^^^')):
            th(f"{op}_{t}_{t2} (x y : Int)", f"Val.{op} (.int .{t} x) (.int .{t2} y) = .ok (.int .{u} (intOfBits .{u} (BitVec.ofInt {T[u][0]} x {o} BitVec.ofInt {T[u][0]} y)))")
        th(f"lt_{t}_{t2} (x y : Int)", f"Val.lt (.int .{t} x) (.int .{t2} y) = decide ({x} < {y})")
        th(f"gt_{t}_{t2} (x y : Int)", f"Val.gt (.int .{t} x) (.int .{t2} y) = decide ({y} < {x})")
        th(f"eq_{t}_{t2} (x y : Int)", f"Val.eq (.int .{t} x) (.int .{t2} y) = decide ({x} = {y})")
        th(f"cast_{t}_{t2} (x : Int)", f"Val.cast (.int .{t2}) (.int .{t} x) = .ok (.int .{t2} {conv(t,t2,'x')})")
        th(f"toBits_{t2}_{t} (x : Int)", f"Val.toBits (.int .{t2}) (.int .{t} x) = .ok (BitVec.ofInt {w2} x)")
        p=promote(t); pw,ps=T[p]
        L.append(f"@[csem] theorem shr_{t}_{t2} [Dialect] (x : Int) {{y : Int}} (h : 0 ≤ y ∧ y < {pw}) : Val.shr (.int .{t} x) (.int .{t2} y) = .ok (.int .{p} (x / 2 ^ y.toNat)) := if_pos h")
        if not ps: L.append(f"@[csem] theorem shl_{t}_{t2} [Dialect] (x : Int) {{y : Int}} (h : 0 ≤ y ∧ y < {pw}) : Val.shl (.int .{t} x) (.int .{t2} y) = .ok (.int .{p} (x * 2 ^ y.toNat % {2**pw})) := if_pos h")
        else: L.append(f"@[csem] theorem shl_{t}_{t2} [Dialect] {{x y : Int}} (h : 0 ≤ y ∧ y < {pw}) (hx : ¬(x < 0 ∨ {2**pw} ≤ x * 2 ^ y.toNat)) : Val.shl (.int .{t} x) (.int .{t2} y) = .ok (.int .{p} (Int.bmod (x * 2 ^ y.toNat) {2**pw})) := (if_pos h).trans (if_neg fun hh => hx hh.2.2)")
for e,w in (('f32',32),('f64',64)):
    th(f"ofBits_{e} (b : BitVec {w})", f"Val.ofBits .{e} b = .{e} b")
    th(f"toBits_{e} (v : Val)", f"Val.toBits .{e} v = .ok v.toF{w}")
    th(f"toF{w}_{e} (b : BitVec {w})", f"Val.toF{w} (.{e} b) = b")
    for op in ('add','sub','mul','div'):
        th(f"{op}_{e}_{e} (x y : BitVec {w})", f"Val.{op} (.{e} x) (.{e} y) = .ok (.{e} (BitVec.ofNat {w} (Fmt.b{w}.{op} x.toNat y.toNat)))")
    th(f"lt_{e}_{e} (x y : BitVec {w})", f"Val.lt (.{e} x) (.{e} y) = Fmt.b{w}.lt x.toNat y.toNat")
    th(f"gt_{e}_{e} (x y : BitVec {w})", f"Val.gt (.{e} x) (.{e} y) = Fmt.b{w}.lt y.toNat x.toNat")
    th(f"cast_{e}_{e} (x : BitVec {w})", f"Val.cast .{e} (.{e} x) = .ok (.{e} x)")
L+=["","end Verif",""]
open("/verif/lean/Verif/Tables.lean","w").write("\n".join(L))
