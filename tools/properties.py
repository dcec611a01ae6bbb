#!/usr/bin/env python3
"""Writes /verif/properties.jsonl."""
import json
P=[]
def p(title, statement, quantifier, why, anchors):
    P.append(dict(id="C%02d"%(len(P)+1), title=title, statement=statement, quantifier=quantifier, why_tests_cant=why, anchors=anchors))
S="neon_sim.cpp"
def a(*syms): return [f"{S}:{s}" for s in syms]
ALL="every lane value of every operand (2^64 to 2^384 inputs per intrinsic)"
WHY="the input space is the full cross product of lane values; the repository's tests try one or two literal vectors per family"

p("Contiguous load","vld1/vld1q return a register whose lane i is exactly the i-th element at the pointer; the only elements they depend on are the first n, and if one of those n elements is outside the buffer or was never written the call has undefined behaviour.",
  "every buffer contents, buffer length and pointer offset","buffers of every length and every offset cannot be enumerated",a("vld1_u8","vld1_s8","vld1q_u8","vld1q_s8","vld1_u16","vld1q_f32","vld1_f64"))
p("De-interleaving load","vld2/vld3/vld4 (and q forms) return k registers where lane i of register j is the element at position k*i+j, and read nothing past the first k*n elements.",
  "every buffer contents, length and pointer offset","the whole memory and all offsets are quantified",a("vld2_u8","vld3_u8","vld4_u8","vld2q_s32","vld4q_u8"))
p("Broadcast","vdup_n/vdupq_n/vmovq_n/vld1q_dup give a register all of whose lanes equal the scalar (resp. the element pointed to).",
  "every scalar value / every pointed-to element",WHY,a("vdup_n_s8","vdupq_n_u8","vmovq_n_f32","vld1q_dup_f32"))
p("Lane load replaces one lane only","vld1_lane/vld2_lane/vld3_lane/vld4_lane replace lane `lane` of each register by the corresponding memory element and keep every other lane of the source, for every lane index in range.",
  "every lane index, source register and buffer",WHY,a("vld1_lane_s8","vld1_lane_u8","vld2_lane_u8","vld3_lane_u8","vld4_lane_u8"))
p("Out-of-range lane index is rejected","Every intrinsic that takes a lane index terminates the program with a diagnostic, and never touches memory outside the register, when the index is outside [0, lanes-1].",
  "every int value of the lane argument","2^32 lane values times all registers; an out-of-bounds read usually looks like a pass in a test",a("vld2_lane_u8","vld1_lane_u8","vgetq_lane_f32","vget_lane_f32","vgetq_lane_u8","vst4q_lane_f32"))
p("Contiguous store","vst1/vst1q write lane i to the i-th element at the pointer, for all n lanes, and leave every other element of the buffer unchanged; a buffer too short for n elements gives undefined behaviour.",
  "every register, buffer contents, length and offset","all buffer lengths and offsets",a("vst1_u8","vst1q_f32","vst1q_u64"))
p("Interleaving store","vst2/vst3/vst4 (and q forms) write lane i of register j to element k*i+j, write each of the k*n elements, and change no other element.",
  "every register tuple, buffer contents, length and offset","an out-of-range or missing write is only visible at particular offsets and buffer lengths",a("vst2_s8","vst3_u8","vst4_u8","vst4_u32","vst4q_u32"))
p("Store/load round trip","Loading with vldN from the pointer just stored to by vstN of the same type returns the stored registers; storing with vstN the registers just loaded by vldN leaves the buffer unchanged.",
  "every register tuple, buffer and offset","composition over all memories",a("vld1_u8","vst1_u8","vld2_s8","vst2_s8","vld3q_u16","vst3q_u16","vld4_u8","vst4_u8"))
p("Store frame over any history","After any sequence of store intrinsics to any pointers into a buffer, the buffer has its original length and each element outside the union of the elements those stores are specified to write is unchanged.",
  "every finite sequence of store calls, any length","unbounded histories",a("vst1_u8","vst4_u8","vst4_u32","vst4q_lane_f32"))
p("Lane store","vst4q_lane_f32 writes exactly lane `lane` of the four registers to the four consecutive elements and nothing else, for every lane index in range.",
  "every register tuple, lane, buffer, offset","all memories",a("vst4q_lane_f32"))
p("Wrapping addition","vadd/vaddq give in each lane the sum modulo 2^width, for all operands.",ALL,WHY,a("vadd_s8","vadd_s32","vadd_s64","vadd_u64","vaddq_s32","vaddq_u64"))
p("Wrapping subtraction","vsub/vsubq give in each lane the difference modulo 2^width, for all operands.",ALL,WHY,a("vsub_s8","vsub_s32","vsub_u64","vsubq_s64"))
p("Widening addition is exact","vaddl, vaddl_high give the exact mathematical sum of the narrow lanes in the wide lane (no overflow is possible).",ALL,WHY,a("vaddl_u8","vaddl_high_s8","vaddl_high_s32","vaddl_high_u32"))
p("Wide addition","vaddw, vaddw_high add the (sign- or zero-extended) narrow lane to the wide lane modulo the wide width.",ALL,WHY,a("vaddw_s8","vaddw_s16","vaddw_s32","vaddw_u32","vaddw_high_s8","vaddw_high_u32"))
p("Add and narrow high half","vaddhn_high keeps the low register and puts in the upper lanes the most significant half of the wrapped sum.",ALL,WHY,a("vaddhn_high_s16","vaddhn_high_s32","vaddhn_high_s64","vaddhn_high_u32","vaddhn_high_u64"))
p("Subtract and narrow high half","vsubhn gives the most significant half of the wrapped difference.",ALL,WHY,a("vsubhn_s16","vsubhn_u16","vsubn_s32","vsubn_s64","vsubn_u32","vsubn_u64"))
p("Rounding subtract and narrow","vrsubhn gives the most significant half of (difference + 2^(w/2-1)) modulo 2^w.",ALL,WHY,a("vrsubhn_s16","vrsubhn_s32","vrsubhn_s64","vrsubhn_u16","vrsubhn_u32","vrsubhn_u64"))
p("Halving subtraction","vhsub/vhsubq give floor((a-b)/2), computed without intermediate overflow, modulo 2^width.",ALL,WHY,a("vhsub_s8","vhsub_u32","vhsub_s32","vhsubq_u8","vhsubq_u32"))
p("Saturating addition","vqadd/vqaddq give the mathematical sum clamped to the lane type's range.",ALL,WHY,a("vqadd_u8","vqaddq_u8"))
p("Saturating subtraction, 8/16/32-bit","vqsub/vqsubq give the mathematical difference clamped to the lane type's range.",ALL,WHY,a("vqsub_s8","vqsub_s16","vqsub_s32","vqsub_u8","vqsub_u32","vqsubq_s8","vqsubq_u32"))
p("Saturating subtraction, 64-bit","vqsub/vqsubq on 64-bit lanes give the exact mathematical difference clamped to the lane type's range.",ALL,"the code goes through double: only operands above 2^53 or at the type limits expose rounding or undefined behaviour",a("vqsub_s64","vqsub_u64","vqsubq_s64","vqsubq_u64"))
p("Widening and wide subtraction","vsubl gives the exact difference of the narrow lanes modulo the wide width; vsubw subtracts the extended narrow lane from the wide lane modulo the wide width.",ALL,WHY,a("vsubl_s8","vsubl_u8","vsubl_s32","vsubw_s8","vsubw_s32","vsubw_u32"))
p("Wrapping multiplication","vmul/vmulq/vmul_n/vmulq_n give the low half of the product in each lane.",ALL,"only large operands overflow the promoted int type",a("vmul_s8","vmul_u16","vmul_s32","vmulq_u16","vmul_n_u16","vmulq_n_u32"))
p("Widening multiplication is exact","vmull and vmull_n give the exact product of the narrow lanes.",ALL,"only operands above 2^15 (u16) or with 32-bit products show the defect",a("vmull_u8","vmull_u16","vmull_u32","vmull_s32","vmull_n_u32","vmull_n_s32"))
p("Saturating doubling multiplication","vqdmull_s16 gives 2*a*b clamped to int32, saturating only for (-32768)*(-32768).",ALL,WHY,a("vqdmull_s16"))
p("Widening multiply-accumulate","vmlal/vmlsl give acc +/- exact product modulo the wide width.",ALL,WHY,a("vmlal_s8","vmlal_u16","vmlal_s32","vmlal_u32","vmlsl_s16","vmlsl_u32"))
p("Multiply-accumulate","vmlaq gives acc + a*b modulo 2^width for integer lanes.",ALL,WHY,a("vmlaq_s8","vmlaq_u16","vmlaq_s32","vmlaq_u32"))
p("Pairwise widening addition","vpaddl gives in lane i the exact sum of lanes 2i and 2i+1.",ALL,WHY,a("vpaddl_u8","vpaddlq_u8","vpaddlq_u16"))
p("Signed max/min","vmaxq/vminq on signed lanes give the larger/smaller lane; the operations form a lattice (commutative, associative, idempotent, absorbing).",ALL,WHY,a("vmaxq_s8","vminq_s8","vmaxq_s32","vminq_s32"))
p("Unsigned max/min","vmaxq_u*/vminq_u* give the larger/smaller lane in the unsigned order.",ALL,"signed and unsigned order agree below 2^(w-1)",a("vmaxq_u8","vminq_u8","vmaxq_u32","vminq_u32"))
p("Float max/min and NaN","vmaxq_f32/vminq_f32/vpmax_f32/vpmin_f32 return the numerically larger/smaller operand, and NaN if either operand is NaN.",
  "every pair of float bit patterns, including NaN, infinities, signed zeros",WHY,a("vmaxq_f32","vminq_f32","vpmax_f32","vpmin_f32"))
p("Comparison masks","vcltq_f32 and vcgtq_u8 produce in each lane all-ones when the comparison holds and zero otherwise (float: false on NaN).",ALL,WHY,a("vcltq_f32","vcgtq_u8"))
p("Bitwise select","vbslq takes each result bit from the first source where the mask bit is 1 and from the second where it is 0.",ALL,"lane-wide masks hide bit-level errors",a("vbslq_u8","vbslq_f32"))
p("Compare-and-select","Selecting with the mask produced by vcltq_f32 picks per lane the first source where a<b and the second otherwise.",ALL,WHY,a("vcltq_f32","vbslq_f32"))
p("Bitwise logic","vand/vorr/veor/vmvn (and q forms) act bit by bit; in particular De Morgan, involution of not, and xor self-inverse hold.",ALL,WHY,a("vand_s8","vorr_u32","veor_s64","ver_u32","vmvn_u16","vmvnq_s32"))
p("Halves and combine are inverse","vget_low/vget_high of vcombine return the two parts, and combining the two halves of a register returns it.",ALL,WHY,a("vcombine_u8","vget_low_u8","vget_high_u8","vcombine_s32"))
p("Lane extraction","vget_lane/vgetq_lane return the lane with the given in-range index.",ALL+" and every index",WHY,a("vget_lane_f32","vgetq_lane_f32","vgetq_lane_s64"))
p("Transpose","vtrn exchanges the odd lanes of the first operand with the even lanes of the second; applying it twice gives the operands back.",ALL,WHY,a("vtrn_s8","vtrnq_u32"))
p("Zip and unzip are inverse","vzip interleaves two registers, vuzp de-interleaves them, and each undoes the other.",ALL,WHY,a("vzip_s8","vzip_u8","vzip_s16","vuzp_u8","vuzp_s8"))
p("Block reversal","vrev16/vrev32/vrev64 reverse the lanes inside each 16/32/64-bit block; applying one twice is the identity.",ALL,"uninitialised or out-of-bounds lanes often hold the expected value by accident",a("vrev16_u8","vrev32_s8","vrev32_u8","vrev64q_s8","vrev64q_s16","vrev64q_u8"))
p("Extract window","vext gives lanes n..n+len-1 of the concatenation of the operands for every permitted n and aborts for any other n.",ALL+" and every int n",WHY,a("vext_u8","vext_u16","vext_s16","vextq_u16"))
p("Table lookup","vtbl1/vtbl2/vtbl4/vqtbl1 return the indexed table byte, and 0 for any out-of-range index.","every table and every index vector",WHY,a("vtbl1_u8","vtbl2_u8","vtbl4_u8","vqtbl1_u8"))
p("Narrowing and widening moves","vmovn keeps the low half, vmovl extends, vqmovn/vqmovun clamp; narrowing (plain or saturating) after widening is the identity.",ALL,WHY,a("vmovn_u16","vmovl_s8","vqmovn_u16","vqmovun_s16"))
p("Narrowing shift right","vshrn_n gives the low half of the lane shifted right by n for every n in [1, w/2] and aborts for every other n.",ALL+" and every int n",WHY,a("vshrn_n_s16","vshrn_n_s32","vshrn_n_s64","vshrn_n_u16","vshrn_n_u32","vshrn_n_u64"))
p("Shift right","vshr_n_u16 gives the lane shifted right by n for every n in the architectural range [1, 16].",ALL+" and every n","n above 8 is never tried",a("vshr_n_u16"))
p("Saturating narrowing shift right, 16-bit","vqshrun_n_s16 and vqrshrun_n_s16 give the (rounded) shifted lane clamped to [0,255], for n in [1,8], and abort for other n.",ALL+" and every int n",WHY,a("vqshrun_n_s16","vqrshrun_n_s16"))
p("Saturating narrowing shift right, 32/64-bit","vqshrun_n_s32 and vqshrun_n_s64 give the shifted lane clamped to the unsigned narrow range.",ALL+" and every n","the result is never written: a test sees whatever was on the stack",a("vqshrun_n_s32","vqshrun_n_s64"))
p("Saturating shift right narrow","vqshrn_n gives the shifted lane clamped to the narrow type for n in [1, w/2].",ALL+" and every n",WHY,a("vqshrn_n_s16","vqshrn_n_s32","vqshrn_n_s64","vqshrn_n_u16","vqshrn_n_u32","vqshrn_n_u64"))
p("Rounding shift right narrow","vrshrn_n_u16 gives the low 8 bits of (lane + 2^(n-1)) >> n for n in [1,8].",ALL+" and every n",WHY,a("vrshrn_n_u16"))
p("Shift right and accumulate","vsraq_n_s32 adds b >> n to the unshifted accumulator a.",ALL+" and every n",WHY,a("vsraq_n_s32"))
p("Shift left","vshlq_n_s32 gives the lane times 2^n modulo 2^32 for n in [0,31]; vshll_n_u8 the exact widened product for n in [0,7].",ALL+" and every n",WHY,a("vshlq_n_s32","vshll_n_u8"))
p("Reinterpretation preserves the register bits","vreinterpret/vreinterpretq keep the 64/128-bit register image, and reinterpreting back returns the original register.",ALL,WHY,a("vreinterpret_u8_s8","vreinterpret_u16_u8","vreinterpretq_u32_u8","vreinterpretq_u8_f64"))
p("Integer to float conversion","vcvtq_f32_s32 gives the float nearest to the integer (ties to even), for all 2^32 integers.","every int32 lane",WHY,a("vcvtq_f32_s32"))
p("Float to integer conversion","vcvtq_s32_f32/vcvtq_u32_f32 truncate toward zero and saturate out-of-range values (NaN to 0).","every float bit pattern",WHY,a("vcvtq_s32_f32","vcvtq_u32_f32"))
p("Rounding float to integer conversion","vcvtnq_s32_f32 rounds to the nearest integer, ties to even.","every float bit pattern",WHY,a("vcvtnq_s32_f32"))
p("Reciprocal estimate accuracy","vrecpeq_f32 is within relative error 2^-8 of 1/x for every normal x whose reciprocal estimate is normal, and keeps the sign.","all 2^32 float bit patterns","four literals are tested out of 2^32",a("vrecpeq_f32","FPRecipEstimate","RecipEstimate"))
p("Reciprocal estimate special values","vrecpeq_f32 maps +-0 to +-infinity, +-infinity to +-0 and NaN to NaN, and never produces NaN from a number.","all special bit patterns",WHY,a("vrecpeq_f32","FPRecipEstimate"))
p("Float arithmetic is lane-wise IEEE","vaddq_f32, vsub_f32, vmulq_f32, vmul_n_f32, vmlaq_f32, vdiv_f32, ... compute in lane i the correctly rounded IEEE-754 operation of the i-th operands, independent of all other lanes.","every float bit pattern in every lane",WHY,a("vaddq_f32","vsub_f32","vmulq_f32","vmulq_n_f64","vmlaq_f32","vmlaq_n_f32","vdivq_f64","vrecpsq_f32"))
p("Freedom from undefined behaviour","Intrinsics that take only registers have no undefined behaviour on any input.",ALL,"undefined behaviour usually does not show in a test",a("vadd_s32","vmul_u16","vmull_u16","vqsub_s64","vrev32_s8","vqtbl1_u8"))
p("Returned registers are fully defined","Every intrinsic that returns normally returns a register in which every lane was written.",ALL,"an indeterminate lane can hold the expected value by accident",a("vrev64q_s8","vrev64q_s16","vqshrun_n_s32","vqshrun_n_s64"))
p("Widening arithmetic factors through widening moves","vaddl(a,b) = vaddq(vmovl a, vmovl b), vaddw(a,b) = vaddq(a, vmovl b), vsubl/vsubw and vmull likewise, vmlal(acc,a,b) = vaddq(acc, vmull(a,b)).",ALL,WHY,a("vaddl_u8","vmovl_u8","vaddq_u16","vsubw_s8","vmlal_s8","vmull_u8"))
p("Lane-wise operations commute with lane permutations","Reversing, zipping or transposing operands and then applying a lane-wise operation equals applying it first and permuting the result.",ALL,WHY,a("vrev64_u8","vzip_u8","vtrn_u8","vadd_u8","vqsub_u8","vand_u8"))
p("Algebraic laws of wrapping arithmetic","On unsigned lanes vadd/vsub/vmul form a commutative ring modulo 2^width: associativity, commutativity, distributivity, vsub(vadd(a,b),b)=a; vmla(acc,a,b) = vadd(acc, vmul(a,b)).",ALL,WHY,a("vadd_u8","vsub_u8","vmul_u8","vmlaq_u8","vmulq_u8"))
p("Saturation laws","vqsub_u8(a,b)=0 iff a<=b lanewise; vqadd is commutative and monotone; vqadd(vqsub(a,b),b) = max(a,b) on u8; saturating and wrapping results agree when no lane overflows.",ALL,WHY,a("vqadd_u8","vqsub_u8","vadd_u8","vsub_u8"))
p("Link coverage","Every function declared in neon_sim.h is defined in neon_sim.cpp with the declared signature.","all 1944 distinct declarations of the header that are active without __fp16","tests only link what they call",["neon_sim.h","neon_sim.cpp"])
p("Newton-Raphson reciprocal refinement","One step vmulq(vrecps(x,e),e) from e=vrecpe(x) brings the relative error below 2^-15 for every normal x whose estimate is normal.","all such float bit patterns",WHY,a("vrecpeq_f32","vrecpsq_f32","vmulq_f32"))
p("Loops over buffers of any length","A loop that loads blocks, applies a lane-wise intrinsic and stores the results applies the operation to every element of the buffer, also when the destination is one of the sources; an accumulation loop folds the operation over the elements of each lane. Where an element operation is undefined the loop is.","every buffer length (any number of blocks), every buffer content, every intrinsic listed","a test runs a few fixed lengths",a("vld1q_u8","vst1q_u8","vaddq_u8","vqsubq_u8","vmull_u8","vmlal_u8","vmovl_u8"))
p("Programs composed of intrinsics","Usual NEON programs compute what they are meant to: RGB to grey by weighted sum, channel exchange in place, row reversal, byte sum and dot product modulo 2^32, 4x4 transposition, absolute difference and unsigned max/min from saturating subtraction.","every image or vector length and content",WHY,a("vld3_u8","vmull_u8","vmlal_u8","vshrn_n_u16","vst3q_u8","vrev64q_u8","vpaddlq_u8","vtrnq_u32","vqsubq_u8"))
p("Signed arithmetic is exact whenever it is defined","If the mathematical result of every lane (and every intermediate result) fits the type it is computed in, the signed 32/64-bit intrinsics return exactly that result with any compiler flags; otherwise the call is undefined in C++11.",ALL,"overflow at the boundary is not tried and often looks right",a("vadd_s32","vsubq_s64","vmul_s32","vmull_s32","vmlal_s16","vmlaq_s32","vaddw_s16"))
p("Wrapping arithmetic with -fwrapv","Compiled so that signed overflow wraps, every intrinsic of the add, subtract and multiply families is defined for all operands and gives the result modulo 2^width of the type it is computed in.",ALL,WHY,a("vadd_s32","vsubq_s64","vmul_u16","vmull_s32","vmlal_s16","vmlaq_s32"))
p("64-bit saturating subtraction is accurate to rounding","When vqsub(q)_s64/u64 returns, it differs from the exact saturated difference by at most the rounding of double (3072), is exact when all values are below 2^53, has the right sign, and vqsub(a,a) = 0.",ALL,"needs operands above 2^53",a("vqsub_s64","vqsub_u64","vqsubq_s64","vqsubq_u64"))
p("Reciprocal step","vrecpsq_f32(a,b) is 2 - a*b, with product and difference rounded once each, and 2.0 when one operand is infinite and the other zero.","all pairs of float bit patterns",WHY,a("vrecpsq_f32"))
p("Convergence of Newton-Raphson refinement","A step vmulq(vrecps(x,e),e) squares the relative error of e up to rounding; two steps from vrecpe(x) reach 2^-20.","all float bit patterns in the normal range",WHY,a("vrecpeq_f32","vrecpsq_f32","vmulq_f32"))
p("Memory after any history of stores","After any sequence of store intrinsics through pointers into a buffer, each element is the one the last store writing it wrote, or what it was before if no store writes it; the sequence is defined exactly when every store has its room in the buffer and a valid lane number. The elements a store writes are those of its interleaved block, except that vst4_u8 and vst4_u32 misplace register 3 (and need 33 and 7 elements).","every sequence of store calls, of any length, at any offsets",WHY,a("vst1_u8","vst2_u8","vst3q_u16","vst4_u8","vst4q_lane_f32"))
p("Calls terminate with the outcome of the source text","Every call of a function defined in neon_sim.cpp terminates, with any arguments, and its effect (the returned value, the changed memory, the message of an abort, undefined behaviour, an indeterminate lane) is the one that executing the text of its definition by the C++ rules gives; no loop counter or index computation overflows.","every function definition of the file; every argument, including every int immediate and every pointer",WHY,a("vld1_u8","vst4_u8","vqsub_s64","vext_s8","vtbl4_u8","vbslq_u8","RecipEstimate","FPRecipEstimate","vrecpeq_f32"))
p("Programs run on the simulator as on the hardware","A program that calls intrinsics on registers and on pointers into buffers, in sequence, under conditions and in loops, completes on the simulator without abort and undefined behaviour, and ends in a state that the meaning of the intrinsics in the Arm architecture allows, whenever that meaning makes it defined. What is proved of a program from the architecture's rules therefore holds when it is linked with the simulator.","every program over the intrinsics, every initial memory, every number of loop iterations","programs are unbounded compositions; a test runs one",a("vld1_u8","vst1_u8","vmull_u8","vqadd_u8","vaddq_f32","vcvtq_s32_f32"))
p("A client program verified against the architecture computes on the simulator what it should","The RGB to grey loop over vld3, vmull, vmlal, vshrn and vst1, verified from the architecture's rules alone, computes the weighted sum of every pixel and writes nothing else when run with the texts of neon_sim.cpp.","every image size (any number of 8-pixel blocks), contents and pointer offset",WHY,a("vdup_n_u8","vld3_u8","vmull_u8","vmlal_u8","vshrn_n_u16","vst1_u8"))
p("Calls with arguments of the declared types have one outcome, of the declared type","A call of a function with arguments of the types it declares has exactly one outcome: a value of its return type (for a store: the same memory, neither moved nor resized), its own range-check message followed by abort, or undefined behaviour. Only vrev64q_s8, vrev64q_s16 and vqshrun_n_s32/s64 may return lanes that were never written.","every function defined in neon_sim.cpp; every argument list of the declared types, including every int immediate and every pointer into a buffer of any size",WHY,a("vld1_u8","vst4_u8","vshrn_n_u16","vext_u8","vrev64q_s8","vget_lane_f32"))
p("Programs that a compiler accepts have one outcome","A program over the intrinsics that names only defined functions, passes arguments of the declared types and uses no variable before it has a value, has exactly one outcome: it ends with every variable of its type and every buffer of its element type and size, or aborts with the message of a function that it calls, or is undefined, or calls one of the four functions that leave lanes unwritten.","every program of calls, stores, conditions and loops, every initial state of the declared types, every number of iterations","programs are unbounded compositions; a test runs one",a("vdup_n_u8","vld3_u8","vmull_u8","vmlal_u8","vshrn_n_u16","vst1_u8"))
p("Exactly which operands the defective intrinsics get right","The results of the intrinsics that deviate from the Arm architecture can be trusted on a known set of operands, and on no others: vaddl_high, vmull, vmull_n, vmlal, vmlsl and vhsub of 32-bit lanes exactly when sums, products or differences fit in 32 bits; vmaxq/vminq of unsigned lanes exactly when the two lanes have the same top bit; vsubn and vaddhn_high exactly when the two bit ranges coincide; vsraq_n_s32 exactly on accumulators 0 and -1; vrsubhn of 64-bit lanes and vrev32_s8 never; vshr_n_u16 up to shift 8; vqshrn_n_s64 when the shifted lane does not exceed the maximum or has its low bits; vqtbl1_u8 for indices below 16; vbslq_f32 when the operands agree where the mask is zero; float max/min except NaN in the first operand only and zeros of different sign in one order; float to integer conversion when the rounded value fits; vst4_u8/u32 when the memory already holds what they fail to write.",ALL,"a test shows that some operands are right or wrong, not that all others are",a("vaddl_high_s32","vmull_u32","vmlal_s32","vhsub_u32","vmaxq_u8","vsubn_u32","vaddhn_high_s64","vsraq_n_s32","vrsubhn_u64","vshr_n_u16","vqshrn_n_s64","vqtbl1_u8","vbslq_f32","vmaxq_f32","vpmin_f32","vcvtnq_s32_f32","vst4_u8","vst4_u32"))
p("The comparisons of the project's tests decide what they claim","almostEqual returns true exactly when no lane of the two registers differs by more than the tolerance (with the default tolerance: exactly when they are equal); otherwise it reports the first lane that does, with both values. It always returns.","every pair of registers (or vectors of any length) and every tolerance, including NaN","the tests use the comparison; no test tests it",["tests/test_util.hpp:almostEqual"])
p("Printed registers can be read back","Printing a register with the stream operator of the tests writes its lanes in order, separated by a comma and a blank, integers in decimal (bytes too, not as characters), and printing a tuple writes one register per line; two integer registers or tuples print the same only if they are equal. What was written before stays.","every register and tuple type with an operator (80), every content, every state of the stream","the operators are only used to report failures; no test reads what they print",["tests/neon_helper.hpp:operator<<"])
p("Laws of float arithmetic","Without overflow a sum or difference has a relative error of at most half a unit in the last place (2^-24, for double 2^-53), a product or quotient too, or an absolute error of half the smallest number. x+0, x-0, x*1 and x/1 are x, x-x is 0, x/x is 1, x+x is 2*x, x-y and y-x are opposite; sums, differences, products and quotients are monotone; the difference of numbers within a factor of two is exact; integers up to 2^24 (2^53) are exact.","every float bit pattern in every lane",WHY,a("vaddq_f32","vsub_f32","vsubq_f32","vmulq_f32","vmul_n_f32","vmulq_n_f64","vdivq_f32","vdivq_f64"))
p("Accumulated rounding error of float sums and scalar products","Accumulating any number n of registers with vaddq_f32 gives in every lane a number that differs from the exact sum by at most ((1+2^-24)^n-1) times the sum of the magnitudes, unless that can overflow; with vmlaq_f32 the scalar product likewise, with the rounding of the products added. The same holds for the loops that load the operands from arrays.","every number of registers or array length, every finite content","a test adds a few literals whose sums are exact",a("vaddq_f32","vmlaq_f32","vld1q_f32"))
p("Bitwise intrinsics form a Boolean algebra","vand, vorr, veor and vmvn satisfy the laws of a Boolean algebra as outcomes of calls: commutativity, associativity, idempotence, absorption, distributivity, neutral elements, complements; veor is the union without the intersection; vbslq_u8(m,a,b) is (m and a) or (not m and b), equal to ((a xor b) and m) xor b, keeps equal operands, and exchanges its operands when the mask is complemented.",ALL,WHY,a("vand_u8","vorrq_s16","veorq_u32","vmvn_s8","vbslq_u8"))
p("Composition of lane permutations","Windows (vext) of windows of a stream of registers are windows whose offsets add up; with equal operands vext rotates, and rotations add up modulo the number of lanes; vzip and vuzp repeated give back the operands after as many steps as the perfect shuffle has; reversals of blocks of different sizes commute; lookups (vtbl1) compose like functions, vrev64 and vext are lookups, and a table of four registers is two tables of two.","every lane content, every offset, every index vector",WHY,a("vext_u8","vextq_u16","vzip_u8","vuzp_s8","vrev16_u8","vrev64_u8","vtbl1_u8","vtbl2_u8","vtbl4_u8"))
p("Round trips between integers and floats","Converting an int register to float and back is defined exactly when no lane exceeds 2147483583; it then changes no lane by more than 64, and none of magnitude up to 2^24. Converting a float register to int and back rounds every lane toward zero, exactly. Conversion to float is monotone with a relative error of at most 2^-24.",ALL,"needs lanes beyond 2^24 and near INT_MAX",a("vcvtq_f32_s32","vcvtq_s32_f32"))
p("Sorting registers with minimum and maximum","Sifting any number of registers through vminq/vmaxq of signed lanes leaves in every lane the same elements in ascending order; for unsigned bytes the same holds with minimum and maximum built from saturating subtraction, and not with vminq_u8 and vmaxq_u8, which compare signed bytes.","every number of registers, every content","a test sorts a few registers",a("vminq_s8","vmaxq_s8","vminq_s16","vmaxq_s32","vqsubq_u8","vmaxq_u8","vminq_u8"))
p("Prefix sums over arrays","A scan of each register by vextq_u16 and vaddq_u16, with the last lane carried to the next block, stores at every index the sum of the elements up to it modulo 2^16, exactly when the total fits, and writes nothing else.","every array length (any number of blocks) and content",WHY,a("vextq_u16","vaddq_u16","vdupq_n_u16","vgetq_lane_u16","vld1q_u16","vst1q_u16"))
p("Sliding-window filters and blending","A filter of up to 8 taps over windows by vext_u8 with vmlal_u8 and vrshrn_n_u16 gives the weighted sum of each window divided by 2^s and rounded to nearest, whenever the weights add up to at most 2^s; blending two images by vmull_u8, vmlal_u8, vmvn_u8, vrshrn_n_u16 gives (a*f+(255-a)*b+128)/256 and stays between the operands up to 1.","every array length and content, every filter of at most 8 taps, every shift",WHY,a("vext_u8","vmlal_u8","vmull_u8","vdup_n_u8","vmvn_u8","vrshrn_n_u16"))
p("Byte array programs","A table of 256 bytes looked up by eight vtbl4_u8 replaces every byte by its entry; vrev32q_u8 exchanges the byte order of every 32-bit word; thresholding by vcgtq_u8 and vbslq_u8, filling by vdupq_n_u8 and moving towards the start of a buffer by vld1q_u8 and vst1q_u8 work for every length and distance, overlap included; moving towards the end works when the regions do not overlap and fails when they do.","every array length, content, table and distance",WHY,a("vtbl4_u8","vorr_u8","vsub_u8","vrev32q_u8","vcgtq_u8","vbslq_u8","vdupq_n_u8","vld1q_u8","vst1q_u8"))
p("Accuracy of numeric programs","Dividing by vrecpe, two Newton steps and a multiplication has a relative error of at most 2^-19 for divisors of normal estimate; Horner's rule by vmlaq_f32 and the product of a matrix and a vector by vmlaq_n_f32 have explicit error bounds for every degree and number of columns; folding vmaxq_f32 or vminq_f32 over registers without NaN gives one of the operands that no operand exceeds (undercuts).","every finite operand without overflow; every degree, number of columns, number of registers and array length","a test evaluates a few literals",a("vrecpeq_f32","vrecpsq_f32","vmulq_f32","vmlaq_f32","vmlaq_n_f32","vmaxq_f32","vminq_f32"))
p("Integer expressions of the intrinsics follow the rules of C++11","Every operator that the definitions use on integers (+, -, *, /, %, <<, >>, &, |, ^, ~, comparisons, std::min and std::max, casts, && and ||, assignment to a lane or a buffer element) promotes and converts its operands as the language says, yields the exact value when it fits, wraps when the type is unsigned, and is undefined on signed overflow (unless it wraps by a flag), on division by zero or with a quotient that does not fit, and on shifts by a negative amount or one not below the width.","all eight integer types on each side, all values",WHY,a("vmlal_s16","vabd_u8","vhadd_s32","vrshr_n_s8","vqshl_n_s32","vqdmulh_s16","RecipEstimate"))
p("An execution has one outcome and keeps the types","The outcome of running the text of a definition does not depend on how many steps it is given, once they are enough; every value of an expression and every variable, lane and element always holds a value of its declared type; a block leaves no variable behind; what a function of the library returns has the type it declares.","every expression, statement and function of the C++ subset, every state; every function definition of neon_sim.cpp",WHY,a("vld1_u8","vst4_u8","vqsub_s64","vtbl4_u8","RecipEstimate","float_parts"))
p("The definitions are read as C++ reads them","The text of every definition in neon_sim.cpp splits into tokens in one way only, that of the lexical rules of C++ (longest match, comments and white space skipped), and its tokens form a function definition in one way only: operators group by precedence and from the left, casts and unary operators bind closer, an else belongs to the nearest if, literals have the first type that holds them. The meaning established for a function is that of this one tree.","every text and every list of tokens (the grammar is unambiguous and the reader agrees with it on all texts it accepts); every function definition of neon_sim.cpp","a test checks what the compiler's reading computes on a few inputs",a("vadd_s8","vqsub_s64","vrshrn_n_u16","vst4_u8","vext_s8","vtbl4_u8","RecipEstimate","FPRecipEstimate"))
p("The definitions execute as the abstract machine of C++ does","Calling a function of neon_sim.cpp with arguments of its declared types has exactly one outcome on the abstract machine of C++ (objects are bytes in a memory, names denote objects, operands are evaluated in any order, promoted and converted, statements run in order), or undefined behaviour in every order: the returned bytes, the memory after a store, the message and abort, or the undefined operation, that the other properties state.","every function of neon_sim.cpp and all arguments of its declared types; every text of the subset that the interpreter accepts; both rules for signed overflow","a test observes one compiler's translation of one call, not what the standard says of all of them",["neon_sim.cpp","neon_sim.h"])
p("The definitions obey the static rules of C++","Every function definition of neon_sim.cpp has types throughout: operands of %, &, |, ^, ~ and << are integers, subscripts are integers, every name is declared with the type its use needs, the two arguments of std::min and std::max have one type, a value is returned on every path and has the declared type; and no execution of a function that obeys these rules, with arguments of its declared types, reaches an operation without a meaning.","every function definition that obeys the rules, all arguments of its parameter types, every number of steps; every translation unit that obeys them, to any depth of calls; all 537 definitions of neon_sim.cpp that call no other function of the file, and the unit of float_parts, whose functions call each other","a compiler checks the rules it implements for the instances it sees; that they suffice for all executions is a theorem about the rules",["neon_sim.cpp"])
p("The filter selects the tests whose names match","With --filter=PATTERN the test runner runs the tests whose names match the pattern, where * stands for any characters, and no others: a name that does not match is never run; a pattern without * selects exactly the name, SET.* all tests of a set, *.NAME all tests of that name, and without the option every test runs. The matching always ends and reads neither string past its end.","every pattern and every name, of any length","a test tries a few patterns",["tests/utest.h:utest_should_filter_test"])
p("Every selected test runs exactly once, in a definite order","A run of the test program that is not cut short calls each selected test exactly once and no other test: in the order of registration, or with --random-order in an order that is a permutation of it, determined by the seed (the given one, or one made from the clock) and the number of tests alone. --help and --list-tests run no test.","every list of registered tests, every combination of command line arguments, every seed, every behaviour of the tests (passing, failing, skipping, throwing, killing the process) on a shared state","schedules are unbounded; a test run is one",["tests/utest.h:utest_main","tests/utest.h:UTEST_MAIN"])
p("The report and the exit status tell what happened","The report of a run names each test that ran, once, with its verdict and its time, and then the numbers of tests that ran and passed and the names of those skipped and failed; a test that throws counts as failed; the XML file lists the tests that ran; and the exit status is zero exactly if no test failed.","every list of tests, every outcome of each, every reading of the clock, every combination of arguments","a test run shows one report",["tests/utest.h:utest_main"])
p("A test passes exactly if its checks held","A test is reported as passed exactly if it ran to its end and every check that it executed held; each failed check is reported with its file and line, and the check evaluates its arguments once; a failed ASSERT ends the test, a failed EXPECT does not; a fixture is set up before and torn down after each test; every instance of an indexed test has its own name and index; EXPECT_NEAR passes exactly if the two numbers differ by at most the tolerance.","every sequence of checks and other statements on any state, every fixture, every number of instances, every triple of doubles including NaN and infinities","the checks decide the verdict of every test; no test tests them",["tests/utest.h:EXPECT_TRUE","tests/utest.h:EXPECT_EQ","tests/utest.h:ASSERT_TRUE","tests/utest.h:EXPECT_NEAR","tests/utest.h:UTEST_SKIP","tests/utest.h:UTEST","tests/utest.h:UTEST_F","tests/utest.h:UTEST_I"])
p("Checks of strings and exceptions judge and report rightly","EXPECT_STREQ passes exactly if both strings are there and equal, EXPECT_STRNE if both are there and differ, EXPECT_STRNEQ and EXPECT_STRNNE compare the first n characters, and none reads a string past its end; EXPECT_EXCEPTION passes exactly if its statement, executed once, throws an exception of the type, and lets no exception out; a failure of these, and of EXPECT_EQ and the like, prints what was expected and what was there.","all pairs of strings of any length, null pointers, every n, every statement and exception type, all texts of arguments","the checks decide the verdict of every test; no test tests them",["tests/utest.h:EXPECT_STREQ","tests/utest.h:EXPECT_STRNE","tests/utest.h:EXPECT_STRNEQ","tests/utest.h:EXPECT_STRNNE","tests/utest.h:EXPECT_EXCEPTION","tests/utest.h:EXPECT_EQ"])
p("Comparison checks compare numbers and report them","EXPECT_EQ, NE, LT, LE, GT and GE, and their ASSERT forms, pass exactly if the relation holds of the two numbers, whatever the arithmetic types of the arguments; a failure prints both numbers, integers in decimal and in full, floating-point numbers rounded to six places, so that the reader sees how they differ.","all pairs of values of all pairs of arithmetic types, including NaN, infinities and zeros, all six relations","the checks decide the verdict of every test; no test tests them",["tests/utest.h:UTEST_EXPECT","tests/utest.h:UTEST_ASSERT","tests/utest.h:utest_type_printer","tests/utest.h:EXPECT_EQ"])
p("The project's test program reports success","Running the test program of the project runs the tests selected by the options, each once, whatever the order in which their initializers registered them; none of them runs into undefined behaviour, with or without -fwrapv, each executes at least one check, all 55 checks hold, every test that runs is reported as passed, none prints anything else, and the exit status is 0.","all command lines that run tests, all orders of registration (the order across source files is unspecified) and of execution (every seed), all clocks and kinds of terminal, both dialects of signed overflow","one run shows one order, one clock and one command line; a test that relies on the order or on undefined behaviour passes in some of them",["tests/test_vadd.cpp:TEST","tests/test_sub.cpp:TEST","tests/test_util.hpp:almostEqual","tests/utest.h:UTEST","tests/utest.h:utest_main"])
p("A check evaluates its arguments once","A check of the test runner evaluates each of its arguments exactly once, whether it passes or fails, and judges and prints the values of that evaluation, on standard output and in the XML file alike; so an argument may have side effects (read the next line, advance an iterator).","all checks, all arguments (functions that return a value and change the state in any way), all states, with and without an XML file, all orders in which the arguments of a call are evaluated","tests use arguments without side effects, for which the number of evaluations does not show",["tests/utest.h:EXPECT_TRUE","tests/utest.h:EXPECT_STREQ","tests/utest.h:EXPECT_NEAR","tests/utest.h:UTEST_EXPECT","tests/utest.h:UTEST_PRINTF"])
p("Floating-point numbers are shown with six significant digits","The messages of almostEqual and the printed float registers show every finite number correctly rounded to six significant digits, without exponent from 0.0001 to below a million and with one otherwise, without zeros at the end, infinities and NaNs by name, a minus sign exactly if the sign bit is set; an integer below a million is shown as an integer is; registers of different content are printed differently.","all 2^32 floats and all 2^64 doubles, in every lane of every float register; all messages","a test prints a few numbers, mostly small integers",["tests/test_util.hpp:almostEqual","tests/neon_helper.hpp:operator<<"])
p("Registers can be written as initializer lists","A list in braces initializes the lanes of a register in order, the remaining lanes are zero; a list that is too long, and a value that the lane type does not represent (or a variable whose type has such values), is rejected by the compiler. Extra braces around the list do not matter; an array of registers takes all lanes in a row, lists of lanes in two pairs of braces, or registers. A register initializes a register of its own type, and one of any type of the same length (the feature list of the README says so).","every register type and every type of arrays of registers, every list of constants and variables of every arithmetic type and length","a test initializes a few registers with small constants; what the compiler rejects cannot be a test",["neon_sim.h:int8x8_t","neon_sim.h:float32x4_t","neon_sim.h:int8x8x2_t","README.md"])
p("Calls with the wrong vector types are rejected at compile time","The compiler rejects every expression in which an intrinsic is given a register of another type than it takes, the wrong number of arguments, a pointer or array of elements of another type than its name says (the example of the README), or const memory to store to; it accepts the expressions whose calls have the declared types, and nothing else. Lane indexes, immediate and other scalar arguments and the extent of arrays are checked too.","all expressions made of calls, to any depth, of all declared functions, with arguments of all register, pointer, array and arithmetic types","what the compiler rejects cannot be a test, and the expressions are unbounded",["README.md","neon_sim.h:vld1_u16","neon_sim.h:vadd_s8","neon_sim.h:vst1_u8"])
p("Checks do not interfere with the names of a test","A check judges the values that its arguments have in the test, whatever the variables of the test are called; EXPECT_EXCEPTION leaves the variables as its statement does.","all comparison checks, EXPECT_NEAR and EXPECT_EXCEPTION, all arguments made of names, values and operations, all variables of a test","a test has a few names; a check that compares a value with itself passes",["tests/utest.h:UTEST_EXPECT","tests/utest.h:EXPECT_NEAR","tests/utest.h:EXPECT_EXCEPTION"])
p("The times in the report are the times that passed","The time shown for a test is the number of nanoseconds that passed while it ran, never negative, and reading the clock is defined; a random order without a given seed takes a new seed in every run.","every reading of the clock of the system, also across midnight, years and adjustments; every amount of processor time; both dialects of signed overflow; every two starts of the program","a test program runs for seconds, at one date",["tests/utest.h:utest_ns","tests/utest.h:utest_main"])
p("Transposing byte matrices","The usual transposition of 8 x 8 bytes by vtrn_u8, vtrn_u16, vtrn_u32 and vreinterpret puts lane i of row k into lane k of row i; done block by block with vld1_u8 and vst1_u8 it transposes a matrix of any number of rows and columns (multiples of eight), writes nothing else, and twice gives the matrix back.","every content of the registers; every number of rows and columns of blocks, every content of the matrix, every destination with room for it in another buffer",WHY,a("vtrn_u8","vtrn_u16","vtrn_u32","vreinterpret_u16_u8","vreinterpret_u32_u16","vreinterpret_u8_u32","vld1_u8","vst1_u8"))
p("Reversing byte arrays","A loop of vld1_u8, vrev64_u8 and vst1_u8 that stores the blocks from the end writes the bytes of the source in reverse order and nothing else, and twice gives the bytes back.","every number of blocks, every content, every destination with room for it in another buffer",WHY,a("vrev64_u8","vld1_u8","vst1_u8"))

with open("/verif/properties.jsonl","w") as f:
    for q in P: f.write(json.dumps(q,ensure_ascii=False)+"\n")
print(len(P))
