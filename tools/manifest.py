#!/usr/bin/env python3
"""Write MANIFEST.json: which theorems settle which property.

Each entry gives a status, a list of (module, regular expression over theorem names) and a note."""
import glob, json, os, re
P = "/verif/lean/Verif/Props"
THM = {os.path.basename(p)[:-5]: re.findall(r"(?m)^theorem (?:Props\.)?([A-Za-z0-9_.]+)", open(p).read()) for p in glob.glob(f"{P}/*.lean")}
T = r"[suf](8|16|32|64)"
SUF = r"(spec|partial|wrapv|ub|wrong|exact|abort|oob|unreadable|saturates_iff|fits|n32|off_by_one)"
def fn(mod, names, suf=SUF): return (mod, rf"({names})_{T}_{suf}")
UB = "Defined exactly when no lane overflows in the C++ arithmetic type (`_partial` gives the exact condition, `_ub` a witness); with -fwrapv the full statement holds (`_wrapv`). Missing: a defined result for overflowing operands in ISO C++, which the code does not give."
CLAIMS = {
"C01": ("proved", [fn("Load", "vld1|vld1q")], ""),
"C02": ("proved", [("Load", rf"vld[234]q?_{T}_spec"), ("Load", "vld_s32_spec")], "`vld2_s32` is defined in the code under the name `vld_s32`."),
"C03": ("proved", [fn("Move", "vdup_n|vdupq_n|vmovq_n"), ("Load", "vld1q_dup_f32_spec")], ""),
"C04": ("proved", [("Load", r"vld[1234]_lane_\w+_(spec|unreadable)")], "The out-of-range case is C05."),
"C05": ("partial", [("Load", r"vld[1234]_lane_\w+_(abort|oob)"), ("Move", r"vgetq?_lane_\w+_(abort|oob)"), ("Store", "vst4q_lane_f32_oob")], "True of vld2/3/4_lane_u8 and vgetq_lane_f32 (`_abort`). False of the others: an out-of-range index is not checked and is undefined behaviour (`_oob`)."),
"C06": ("proved", [fn("Store", "vst1|vst1q")], ""),
"C07": ("partial", [("Store", rf"vst[234]q?_{T}_(spec|partial|wrong)")], "True of every vst2/3/4 except vst4_u8 and vst4_u32, which write wrong elements (`vst4_u8_wrong`, `vst4_u32_partial` says exactly what is written)."),
"C08": ("partial", [("Store", r"v(ld|st)\d?q?_\w+_v(ld|st)\d?q?_\w+")], "Both directions proved for every pair of the code except vst4_u8 and vst4_u32, refuted for these."),
"C09": ("partial", [("History", "stores_.*"), ("HistoryAll", "stores_.*")], "Proved for every history of stores without vst4_u8, by induction on the history; with vst4_u8 the claim is false (`stores_frame_vst4_u8_wrong`). `stores_frame` is for every history, with the elements that the calls really write (vst4_u8: one past its block)."),
"C10": ("proved", [("Store", "vst4q_lane_f32_spec")], "For every in-range lane; the out-of-range case is C05."),
"C11": ("partial", [fn("AddSub", "vadd|vaddq")], "Full for all 8/16-bit and all unsigned lanes. Signed 32/64-bit lanes: " + UB),
"C12": ("partial", [fn("AddSub", "vsub|vsubq")], "Full for all 8/16-bit and all unsigned lanes. Signed 32/64-bit lanes: " + UB),
"C13": ("partial", [fn("Widen", "vaddl|vaddl_high")], "False of vaddl_high_s32 and vaddl_high_u32, which add in 32 bits (`_wrong`)."),
"C14": ("partial", [fn("Widen", "vaddw|vaddw_high")], "Signed s16/s32 forms: " + UB),
"C15": ("partial", [fn("NarrowHigh", "vaddhn_high")], "Full for s16/u16. False of the 32/64-bit forms, which shift by 4 and 2 (`_wrong`)."),
"C16": ("partial", [fn("NarrowHigh", "vsubhn|vsubn")], "Full for s16/u16. The 32/64-bit forms are defined under the name vsubn_* and shift by 8 (`_wrong`)."),
"C17": ("partial", [fn("NarrowHigh", "vrsubhn")], "Full for s16/u16/u32; s32 when the code does not overflow. False of the 64-bit forms (`_wrong`, `_off_by_one`)."),
"C18": ("partial", [fn("NarrowHigh", "vhsub|vhsubq")], "Full for 8/16-bit lanes. False of the 32-bit lanes, where the difference overflows before halving (`_wrong`)."),
"C19": ("proved", [fn("Saturate", "vqadd|vqaddq")], "Only the u8 forms are defined in the code."),
"C20": ("proved", [fn("Saturate", "vqsub|vqsubq")], ""),
"C21": ("partial", [("QSub64", r"vqsubq?_[su]64_\w+"), ("QSub64", "doubleDiff_(exists|exact|error|self|nonpos|nonneg)")], "The code computes in double. Exact when the operands are at most 2^53 in magnitude (`_partial`), error at most 3072 otherwise (`_error`), undefined for e.g. INT64_MAX - 0 (`_ub`); the claim itself is false (`_wrong`)."),
"C22": ("partial", [fn("Widen", "vsubl|vsubw")], "vsubl full. vsubw s16/s32: " + UB),
"C23": ("partial", [fn("Mul", "vmul|vmulq|vmul_n|vmulq_n")], "Full for 8-bit, s16 and u32 lanes. u16 (promoted to int) and s32: " + UB),
"C24": ("partial", [fn("Mul", "vmull|vmull_n")], "Full for s8/s16/u8; u16 when the product fits in int, or with -fwrapv. False of the 32-bit forms, which multiply in 32 bits (`_wrong`)."),
"C25": ("proved", [fn("Mul", "vqdmull")], ""),
"C26": ("partial", [fn("Mul", "vmlal|vmlsl")], "Full for s8/u8; s16/u16 when defined or with -fwrapv. False of the 32-bit forms (`_wrong`)."),
"C27": ("partial", [fn("Mul", "vmlaq")], "Full for s8/s16/u8/u32. s32 and u16: " + UB),
"C28": ("proved", [fn("Mul", "vpaddl|vpaddlq")], ""),
"C29": ("proved", [("MaxMin", r"v(max|min)q_s\d+_\w+"), ("Laws", r"v(max|min)q_s\d+_\w+")], ""),
"C30": ("partial", [("MaxMin", r"v(max|min)q_u\d+_\w+")], "True when no lane has its top bit set (`_partial`); the code compares the lanes as signed numbers, so the claim is false in general (`_wrong`)."),
"C31": ("partial", [("FloatSel", r"vp?(max|min)q?_f32_(partial|nan|wrong|assoc)")], "True of non-NaN operands; a NaN in the second operand is returned, a NaN in the first is dropped (`_nan`, `_wrong`)."),
"C32": ("proved", [("FloatSel", "vcltq_f32_(spec|nan)"), ("Select", "vcgtq_u8_spec")], ""),
"C33": ("partial", [("Select", "vbslq_u8_spec"), ("FloatSel", "vbslq_f32_(partial|wrong)")], "Full for vbslq_u8. vbslq_f32 selects whole lanes by mask != 0: correct for all-ones/all-zeros lanes only."),
"C34": ("proved", [("FloatSel", "vbslq_f32_vcltq_f32|v(min|max)q_f32_eq_select")], ""),
"C35": ("proved", [("Logic", ".*")], ""),
"C36": ("proved", [("Move", r"(vget_low|vget_high|vcombine)_\w+")], ""),
"C37": ("proved", [("Move", r"vgetq?_lane_\w+_spec")], ""),
"C38": ("proved", [("Perm", r"vtrnq?_\w+")], ""),
"C39": ("proved", [("Perm", r"v(zip|uzp)_\w+")], "vuzp_s16 is not defined in the code, so vzip_s16 has no inverse there."),
"C40": ("partial", [("Perm", r"vrev(16|32|64)q?_\w+")], "False of vrev32_s8 (reads outside the operand) and vrev64q_s8/s16 (upper half never written); full for the other 24."),
"C41": ("proved", [("Perm", r"vextq?_\w+")], "vext_u8 and vextq_u16 also permit n = 8 (an all-second-operand window); 'permitted' is what the code permits."),
"C42": ("partial", [("Select", r"vq?tbl\d_u8_\w+")], "Full for vtbl1/2/4_u8. vqtbl1_u8 reads outside the table for an index of 16 or more (`_oob`)."),
"C43": ("proved", [("Move", r"v(movn|movl|qmovn|qmovun)_\w+")], ""),
"C44": ("proved", [("Shift", r"vshrn_n_\w+")], ""),
"C45": ("partial", [("Shift", r"vshr_n_u16_\w+")], "Proved for n in [1,8]; the code aborts for n in [9,16] (`_wrong`)."),
"C46": ("proved", [("Shift", r"vqr?shrun_n_s16_\w+")], ""),
"C47": ("partial", [("Shift", r"vqshrun_n_s(32|64)_\w+")], "False of the code: no lane of the result is ever written (`_wrong`); `_partial` says what is true, the range check (`_abort`) is right."),
"C48": ("partial", [("Shift", r"vqshrn_n_\w+")], "Full for s16/s32/u16/u32/u64. vqshrn_n_s64 truncates before clamping (`_wrong`); right when the shifted lane fits (`_fits`)."),
"C49": ("proved", [("Shift", r"vrshrn_n_u16_\w+")], ""),
"C50": ("partial", [("Shift", r"vsraq_n_s32_\w+")], "False of the code, which also shifts the accumulator (`_wrong`)."),
"C51": ("partial", [("Shift", r"vsh(lq|ll)_n_\w+")], "vshll_n_u8 full. vshlq_n_s32 of a negative or overflowing lane is undefined in C++11; full with -fwrapv."),
"C52": ("proved", [("Reinterpret", ".*")], "Round trips for the pairs where both directions are defined in the code."),
"C53": ("proved", [("FloatConv", "vcvtq_f32_s32_(spec|exact)")], ""),
"C54": ("partial", [("FloatConv", r"vcvtq_[su]32_f32_(partial|ub|wrong)")], "Truncation proved for in-range lanes; out-of-range lanes and NaN are undefined behaviour."),
"C55": ("partial", [("FloatConv", r"vcvtnq_s32_f32_\w+")], "False of the code, which truncates (`_wrong`); right for integral in-range lanes (`_exact`)."),
"C56": ("proved", [("Recip", "vrecpeq_f32_spec|recip_accurate|recip_normal_iff")], ""),
"C57": ("partial", [("Recip", r"vrecpeq_f32_(sign_partial|\w+_wrong|lane)")], "Only the sign is right; NaN, zeros, infinities and huge operands give wrong values (`_wrong`)."),
"C58": ("proved", [("Float", rf"v(add|sub|mul|mul_n|mulq_n|addq|subq|mulq|div|divq|mlaq|mlaq_n)_f(32|64)(_overload2)?_(spec|comm)"), ("Float", r"is(Sum|Diff|Prod|Quot)_unique")], ""),
"C66": ("proved", [("Recip", "newton_step|recip_(one|two)_steps?")], ""),
}
try:
    from manifest_more import MORE
    CLAIMS.update(MORE)
except ImportError: pass
def main():
    ids = [json.loads(l)["id"] for l in open("/verif/properties.jsonl")]
    out, used = [], {}
    for i in ids:
        if i not in CLAIMS: print("no claim for", i); continue
        st, pats, note = CLAIMS[i]; names = []
        for m, r in pats:
            if m not in THM: print(i, "no module", m); continue
            hit = [t for t in THM[m] if re.fullmatch(r, t)]
            if not hit: print(i, "no match", m, r)
            names += [f"Verif.Props.{t}" for t in hit]
        names = list(dict.fromkeys(names))
        out.append({"property": i, "status": st, "theorems": names, "note": note})
        for n in names: used[n] = i
    json.dump({"claims": out}, open("/verif/MANIFEST.json", "w"), indent=1)
    left = [t for m in sorted(THM) for t in THM[m] if f"Verif.Props.{t}" not in used and not t.endswith("_eval")]
    print(len(out), "claims", len(used), "theorems;", "unlisted:", " ".join(left))
main()
