{"id": "C01", "title": "Contiguous load", "statement": "vld1/vld1q return a register whose lane i is exactly the i-th element at the pointer; the only elements they depend on are the first n, and if one of those n elements is outside the buffer or was never written the call has undefined behaviour.", "quantifier": "every buffer contents, buffer length and pointer offset", "why_tests_cant": "buffers of every length and every offset cannot be enumerated", "anchors": ["neon_sim.cpp:vld1_u8", "neon_sim.cpp:vld1_s8", "neon_sim.cpp:vld1q_u8", "neon_sim.cpp:vld1q_s8", "neon_sim.cpp:vld1_u16", "neon_sim.cpp:vld1q_f32", "neon_sim.cpp:vld1_f64"]}
{"id": "C02", "title": "De-interleaving load", "statement": "vld2/vld3/vld4 (and q forms) return k registers where lane i of register j is the element at position k*i+j, and read nothing past the first k*n elements.", "quantifier": "every buffer contents, length and pointer offset", "why_tests_cant": "the whole memory and all offsets are quantified", "anchors": ["neon_sim.cpp:vld2_u8", "neon_sim.cpp:vld3_u8", "neon_sim.cpp:vld4_u8", "neon_sim.cpp:vld2q_s32", "neon_sim.cpp:vld4q_u8"]}
{"id": "C03", "title": "Broadcast", "statement": "vdup_n/vdupq_n/vmovq_n/vld1q_dup give a register all of whose lanes equal the scalar (resp. the element pointed to).", "quantifier": "every scalar value / every pointed-to element", "why_tests_cant": "the input space is the full cross product of lane values; the repository's tests try one or two literal vectors per family", "anchors": ["neon_sim.cpp:vdup_n_s8", "neon_sim.cpp:vdupq_n_u8", "neon_sim.cpp:vmovq_n_f32", "neon_sim.cpp:vld1q_dup_f32"]}
{"id": "C04", "title": "Lane load replaces one lane only", "statement": "vld1_lane/vld2_lane/vld3_lane/vld4_lane replace lane `lane` of each register by the corresponding memory element and keep every other lane of the source, for every lane index in range.", "quantifier": "every lane index, source register and buffer", "why_tests_cant": "the input space is the full cross product of lane values; the repository's tests try one or two literal vectors per family", "anchors": ["neon_sim.cpp:vld1_lane_s8", "neon_sim.cpp:vld1_lane_u8", "neon_sim.cpp:vld2_lane_u8", "neon_sim.cpp:vld3_lane_u8", "neon_sim.cpp:vld4_lane_u8"]}
{"id": "C05", "title": "Out-of-range lane index is rejected", "statement": "Every intrinsic that takes a lane index terminates the program with a diagnostic, and never touches memory outside the register, when the index is outside [0, lanes-1].", "quantifier": "every int value of the lane argument", "why_tests_cant": "2^32 lane values times all registers; an out-of-bounds read usually looks like a pass in a test", "anchors": ["neon_sim.cpp:vld2_lane_u8", "neon_sim.cpp:vld1_lane_u8", "neon_sim.cpp:vgetq_lane_f32", "neon_sim.cpp:vget_lane_f32", "neon_sim.cpp:vgetq_lane_u8", "neon_sim.cpp:vst4q_lane_f32"]}
{"id": "C06", "title": "Contiguous store", "statement": "vst1/vst1q write lane i to the i-th element at the pointer, for all n lanes, and leave every other element of the buffer unchanged; a buffer too short for n elements gives undefined behaviour.", "quantifier": "every register, buffer contents, length and offset", "why_tests_cant": "all buffer lengths and offsets", "anchors": ["neon_sim.cpp:vst1_u8", "neon_sim.cpp:vst1q_f32", "neon_sim.cpp:vst1q_u64"]}
{"id": "C07", "title": "Interleaving store", "statement": "vst2/vst3/vst4 (and q forms) write lane i of register j to element k*i+j, write each of the k*n elements, and change no other element.", "quantifier": "every register tuple, buffer contents, length and offset", "why_tests_cant": "an out-of-range or missing write is only visible at particular offsets and buffer lengths", "anchors": ["neon_sim.cpp:vst2_s8", "neon_sim.cpp:vst3_u8", "neon_sim.cpp:vst4_u8", "neon_sim.cpp:vst4_u32", "neon_sim.cpp:vst4q_u32"]}
{"id": "C08", "title": "Store/load round trip", "statement": "Loading with vldN from the pointer just stored to by vstN of the same type returns the stored registers; storing with vstN the registers just loaded by vldN leaves the buffer unchanged.", "quantifier": "every register tuple, buffer and offset", "why_tests_cant": "composition over all memories", "anchors": ["neon_sim.cpp:vld1_u8", "neon_sim.cpp:vst1_u8", "neon_sim.cpp:vld2_s8", "neon_sim.cpp:vst2_s8", "neon_sim.cpp:vld3q_u16", "neon_sim.cpp:vst3q_u16", "neon_sim.cpp:vld4_u8", "neon_sim.cpp:vst4_u8"]}
{"id": "C09", "title": "Store frame over any history", "statement": "After any sequence of store intrinsics to any pointers into a buffer, the buffer has its original length and each element outside the union of the elements those stores are specified to write is unchanged.", "quantifier": "every finite sequence of store calls, any length", "why_tests_cant": "unbounded histories", "anchors": ["neon_sim.cpp:vst1_u8", "neon_sim.cpp:vst4_u8", "neon_sim.cpp:vst4_u32", "neon_sim.cpp:vst4q_lane_f32"]}
{"id": "C10", "title": "Lane store", "statement": "vst4q_lane_f32 writes exactly lane `lane` of the four registers to the four consecutive elements and nothing else, for every lane index in range.", "quantifier": "every register tuple, lane, buffer, offset", "why_tests_cant": "all memories", "anchors": ["neon_sim.cpp:vst4q_lane_f32"]}
{"id": "C11", "title": "Wrapping addition", "statement": "vadd/vaddq give in each lane the sum modulo 2^width, for all operands.", "quantifier": "every lane value of every operand (2^64 to 2^384 inputs per intrinsic)", "why_tests_cant": "the input space is the full cross product of lane values; the repository's tests try one or two literal vectors per family", "anchors": ["neon_sim.cpp:vadd_s8", "neon_sim.cpp:vadd_s32", "neon_sim.cpp:vadd_s64", "neon_sim.cpp:vadd_u64", "neon_sim.cpp:vaddq_s32", "neon_sim.cpp:vaddq_u64"]}
{"id": "C12", "title": "Wrapping subtraction", "statement": "vsub/vsubq give in each lane the difference modulo 2^width, for all operands.", "quantifier": "every lane value of every operand (2^64 to 2^384 inputs per intrinsic)", "why_tests_cant": "the input space is the full cross product of lane values; the repository's tests try one or two literal vectors per family", "anchors": ["neon_sim.cpp:vsub_s8", "neon_sim.cpp:vsub_s32", "neon_sim.cpp:vsub_u64", "neon_sim.cpp:vsubq_s64"]}
{"id": "C13", "title": "Widening addition is exact", "statement": "vaddl, vaddl_high give the exact mathematical sum of the narrow lanes in the wide lane (no overflow is possible).", "quantifier": "every lane value of every operand (2^64 to 2^384 inputs per intrinsic)", "why_tests_cant": "the input space is the full cross product of lane values; the repository's tests try one or two literal vectors per family", "anchors": ["neon_sim.cpp:vaddl_u8", "neon_sim.cpp:vaddl_high_s8", "neon_sim.cpp:vaddl_high_s32", "neon_sim.cpp:vaddl_high_u32"]}
{"id": "C14", "title": "Wide addition", "statement": "vaddw, vaddw_high add the (sign- or zero-extended) narrow lane to the wide lane modulo the wide width.", "quantifier": "every lane value of every operand (2^64 to 2^384 inputs per intrinsic)", "why_tests_cant": "the input space is the full cross product of lane values; the repository's tests try one or two literal vectors per family", "anchors": ["neon_sim.cpp:vaddw_s8", "neon_sim.cpp:vaddw_s16", "neon_sim.cpp:vaddw_s32", "neon_sim.cpp:vaddw_u32", "neon_sim.cpp:vaddw_high_s8", "neon_sim.cpp:vaddw_high_u32"]}
{"id": "C15", "title": "Add and narrow high half", "statement": "vaddhn_high keeps the low register and puts in the upper lanes the most significant half of the wrapped sum.", "quantifier": "every lane value of every operand (2^64 to 2^384 inputs per intrinsic)", "why_tests_cant": "the input space is the full cross product of lane values; the repository's tests try one or two literal vectors per family", "anchors": ["neon_sim.cpp:vaddhn_high_s16", "neon_sim.cpp:vaddhn_high_s32", "neon_sim.cpp:vaddhn_high_s64", "neon_sim.cpp:vaddhn_high_u32", "neon_sim.cpp:vaddhn_high_u64"]}
{"id": "C16", "title": "Subtract and narrow high half", "statement": "vsubhn gives the most significant half of the wrapped difference.", "quantifier": "every lane value of every operand (2^64 to 2^384 inputs per intrinsic)", "why_tests_cant": "the input space is the full cross product of lane values; the repository's tests try one or two literal vectors per family", "anchors": ["neon_sim.cpp:vsubhn_s16", "neon_sim.cpp:vsubhn_u16", "neon_sim.cpp:vsubn_s32", "neon_sim.cpp:vsubn_s64", "neon_sim.cpp:vsubn_u32", "neon_sim.cpp:vsubn_u64"]}
{"id": "C17", "title": "Rounding subtract and narrow", "statement": "vrsubhn gives the most significant half of (difference + 2^(w/2-1)) modulo 2^w.", "quantifier": "every lane value of every operand (2^64 to 2^384 inputs per intrinsic)", "why_tests_cant": "the input space is the full cross product of lane values; the repository's tests try one or two literal vectors per family", "anchors": ["neon_sim.cpp:vrsubhn_s16", "neon_sim.cpp:vrsubhn_s32", "neon_sim.cpp:vrsubhn_s64", "neon_sim.cpp:vrsubhn_u16", "neon_sim.cpp:vrsubhn_u32", "neon_sim.cpp:vrsubhn_u64"]}
{"id": "C18", "title": "Halving subtraction", "statement": "vhsub/vhsubq give floor((a-b)/2), computed without intermediate overflow, modulo 2^width.", "quantifier": "every lane value of every operand (2^64 to 2^384 inputs per intrinsic)", "why_tests_cant": "the input space is the full cross product of lane values; the repository's tests try one or two literal vectors per family", "anchors": ["neon_sim.cpp:vhsub_s8", "neon_sim.cpp:vhsub_u32", "neon_sim.cpp:vhsub_s32", "neon_sim.cpp:vhsubq_u8", "neon_sim.cpp:vhsubq_u32"]}
{"id": "C19", "title": "Saturating addition", "statement": "vqadd/vqaddq give the mathematical sum clamped to the lane type's range.", "quantifier": "every lane value of every operand (2^64 to 2^384 inputs per intrinsic)", "why_tests_cant": "the input space is the full cross product of lane values; the repository's tests try one or two literal vectors per family", "anchors": ["neon_sim.cpp:vqadd_u8", "neon_sim.cpp:vqaddq_u8"]}
{"id": "C20", "title": "Saturating subtraction, 8/16/32-bit", "statement": "vqsub/vqsubq give the mathematical difference clamped to the lane type's range.", "quantifier": "every lane value of every operand (2^64 to 2^384 inputs per intrinsic)", "why_tests_cant": "the input space is the full cross product of lane values; the repository's tests try one or two literal vectors per family", "anchors": ["neon_sim.cpp:vqsub_s8", "neon_sim.cpp:vqsub_s16", "neon_sim.cpp:vqsub_s32", "neon_sim.cpp:vqsub_u8", "neon_sim.cpp:vqsub_u32", "neon_sim.cpp:vqsubq_s8", "neon_sim.cpp:vqsubq_u32"]}
{"id": "C21", "title": "Saturating subtraction, 64-bit", "statement": "vqsub/vqsubq on 64-bit lanes give the exact mathematical difference clamped to the lane type's range.", "quantifier": "every lane value of every operand (2^64 to 2^384 inputs per intrinsic)", "why_tests_cant": "the code goes through double: only operands above 2^53 or at the type limits expose rounding or undefined behaviour", "anchors": ["neon_sim.cpp:vqsub_s64", "neon_sim.cpp:vqsub_u64", "neon_sim.cpp:vqsubq_s64", "neon_sim.cpp:vqsubq_u64"]}
{"id": "C22", "title": "Widening and wide subtraction", "statement": "vsubl gives the exact difference of the narrow lanes modulo the wide width; vsubw subtracts the extended narrow lane from the wide lane modulo the wide width.", "quantifier": "every lane value of every operand (2^64 to 2^384 inputs per intrinsic)", "why_tests_cant": "the input space is the full cross product of lane values; the repository's tests try one or two literal vectors per family", "anchors": ["neon_sim.cpp:vsubl_s8", "neon_sim.cpp:vsubl_u8", "neon_sim.cpp:vsubl_s32", "neon_sim.cpp:vsubw_s8", "neon_sim.cpp:vsubw_s32", "neon_sim.cpp:vsubw_u32"]}
{"id": "C23", "title": "Wrapping multiplication", "statement": "vmul/vmulq/vmul_n/vmulq_n give the low half of the product in each lane.", "quantifier": "every lane value of every operand (2^64 to 2^384 inputs per intrinsic)", "why_tests_cant": "only large operands overflow the promoted int type", "anchors": ["neon_sim.cpp:vmul_s8", "neon_sim.cpp:vmul_u16", "neon_sim.cpp:vmul_s32", "neon_sim.cpp:vmulq_u16", "neon_sim.cpp:vmul_n_u16", "neon_sim.cpp:vmulq_n_u32"]}
{"id": "C24", "title": "Widening multiplication is exact", "statement": "vmull and vmull_n give the exact product of the narrow lanes.", "quantifier": "every lane value of every operand (2^64 to 2^384 inputs per intrinsic)", "why_tests_cant": "only operands above 2^15 (u16) or with 32-bit products show the defect", "anchors": ["neon_sim.cpp:vmull_u8", "neon_sim.cpp:vmull_u16", "neon_sim.cpp:vmull_u32", "neon_sim.cpp:vmull_s32", "neon_sim.cpp:vmull_n_u32", "neon_sim.cpp:vmull_n_s32"]}
{"id": "C25", "title": "Saturating doubling multiplication", "statement": "vqdmull_s16 gives 2*a*b clamped to int32, saturating only for (-32768)*(-32768).", "quantifier": "every lane value of every operand (2^64 to 2^384 inputs per intrinsic)", "why_tests_cant": "the input space is the full cross product of lane values; the repository's tests try one or two literal vectors per family", "anchors": ["neon_sim.cpp:vqdmull_s16"]}
{"id": "C26", "title": "Widening multiply-accumulate", "statement": "vmlal/vmlsl give acc +/- exact product modulo the wide width.", "quantifier": "every lane value of every operand (2^64 to 2^384 inputs per intrinsic)", "why_tests_cant": "the input space is the full cross product of lane values; the repository's tests try one or two literal vectors per family", "anchors": ["neon_sim.cpp:vmlal_s8", "neon_sim.cpp:vmlal_u16", "neon_sim.cpp:vmlal_s32", "neon_sim.cpp:vmlal_u32", "neon_sim.cpp:vmlsl_s16", "neon_sim.cpp:vmlsl_u32"]}
{"id": "C27", "title": "Multiply-accumulate", "statement": "vmlaq gives acc + a*b modulo 2^width for integer lanes.", "quantifier": "every lane value of every operand (2^64 to 2^384 inputs per intrinsic)", "why_tests_cant": "the input space is the full cross product of lane values; the repository's tests try one or two literal vectors per family", "anchors": ["neon_sim.cpp:vmlaq_s8", "neon_sim.cpp:vmlaq_u16", "neon_sim.cpp:vmlaq_s32", "neon_sim.cpp:vmlaq_u32"]}
{"id": "C28", "title": "Pairwise widening addition", "statement": "vpaddl gives in lane i the exact sum of lanes 2i and 2i+1.", "quantifier": "every lane value of every operand (2^64 to 2^384 inputs per intrinsic)", "why_tests_cant": "the input space is the full cross product of lane values; the repository's tests try one or two literal vectors per family", "anchors": ["neon_sim.cpp:vpaddl_u8", "neon_sim.cpp:vpaddlq_u8", "neon_sim.cpp:vpaddlq_u16"]}
{"id": "C29", "title": "Signed max/min", "statement": "vmaxq/vminq on signed lanes give the larger/smaller lane; the operations form a lattice (commutative, associative, idempotent, absorbing).", "quantifier": "every lane value of every operand (2^64 to 2^384 inputs per intrinsic)", "why_tests_cant": "the input space is the full cross product of lane values; the repository's tests try one or two literal vectors per family", "anchors": ["neon_sim.cpp:vmaxq_s8", "neon_sim.cpp:vminq_s8", "neon_sim.cpp:vmaxq_s32", "neon_sim.cpp:vminq_s32"]}
{"id": "C30", "title": "Unsigned max/min", "statement": "vmaxq_u*/vminq_u* give the larger/smaller lane in the unsigned order.", "quantifier": "every lane value of every operand (2^64 to 2^384 inputs per intrinsic)", "why_tests_cant": "signed and unsigned order agree below 2^(w-1)", "anchors": ["neon_sim.cpp:vmaxq_u8", "neon_sim.cpp:vminq_u8", "neon_sim.cpp:vmaxq_u32", "neon_sim.cpp:vminq_u32"]}
{"id": "C31", "title": "Float max/min and NaN", "statement": "vmaxq_f32/vminq_f32/vpmax_f32/vpmin_f32 return the numerically larger/smaller operand, and NaN if either operand is NaN.", "quantifier": "every pair of float bit patterns, including NaN, infinities, signed zeros", "why_tests_cant": "the input space is the full cross product of lane values; the repository's tests try one or two literal vectors per family", "anchors": ["neon_sim.cpp:vmaxq_f32", "neon_sim.cpp:vminq_f32", "neon_sim.cpp:vpmax_f32", "neon_sim.cpp:vpmin_f32"]}
{"id": "C32", "title": "Comparison masks", "statement": "vcltq_f32 and vcgtq_u8 produce in each lane all-ones when the comparison holds and zero otherwise (float: false on NaN).", "quantifier": "every lane value of every operand (2^64 to 2^384 inputs per intrinsic)", "why_tests_cant": "the input space is the full cross product of lane values; the repository's tests try one or two literal vectors per family", "anchors": ["neon_sim.cpp:vcltq_f32", "neon_sim.cpp:vcgtq_u8"]}
{"id": "C33", "title": "Bitwise select", "statement": "vbslq takes each result bit from the first source where the mask bit is 1 and from the second where it is 0.", "quantifier": "every lane value of every operand (2^64 to 2^384 inputs per intrinsic)", "why_tests_cant": "lane-wide masks hide bit-level errors", "anchors": ["neon_sim.cpp:vbslq_u8", "neon_sim.cpp:vbslq_f32"]}
{"id": "C34", "title": "Compare-and-select", "statement": "Selecting with the mask produced by vcltq_f32 picks per lane the first source where a<b and the second otherwise.", "quantifier": "every lane value of every operand (2^64 to 2^384 inputs per intrinsic)", "why_tests_cant": "the input space is the full cross product of lane values; the repository's tests try one or two literal vectors per family", "anchors": ["neon_sim.cpp:vcltq_f32", "neon_sim.cpp:vbslq_f32"]}
{"id": "C35", "title": "Bitwise logic", "statement": "vand/vorr/veor/vmvn (and q forms) act bit by bit; in particular De Morgan, involution of not, and xor self-inverse hold.", "quantifier": "every lane value of every operand (2^64 to 2^384 inputs per intrinsic)", "why_tests_cant": "the input space is the full cross product of lane values; the repository's tests try one or two literal vectors per family", "anchors": ["neon_sim.cpp:vand_s8", "neon_sim.cpp:vorr_u32", "neon_sim.cpp:veor_s64", "neon_sim.cpp:ver_u32", "neon_sim.cpp:vmvn_u16", "neon_sim.cpp:vmvnq_s32"]}
{"id": "C36", "title": "Halves and combine are inverse", "statement": "vget_low/vget_high of vcombine return the two parts, and combining the two halves of a register returns it.", "quantifier": "every lane value of every operand (2^64 to 2^384 inputs per intrinsic)", "why_tests_cant": "the input space is the full cross product of lane values; the repository's tests try one or two literal vectors per family", "anchors": ["neon_sim.cpp:vcombine_u8", "neon_sim.cpp:vget_low_u8", "neon_sim.cpp:vget_high_u8", "neon_sim.cpp:vcombine_s32"]}
{"id": "C37", "title": "Lane extraction", "statement": "vget_lane/vgetq_lane return the lane with the given in-range index.", "quantifier": "every lane value of every operand (2^64 to 2^384 inputs per intrinsic) and every index", "why_tests_cant": "the input space is the full cross product of lane values; the repository's tests try one or two literal vectors per family", "anchors": ["neon_sim.cpp:vget_lane_f32", "neon_sim.cpp:vgetq_lane_f32", "neon_sim.cpp:vgetq_lane_s64"]}
{"id": "C38", "title": "Transpose", "statement": "vtrn exchanges the odd lanes of the first operand with the even lanes of the second; applying it twice gives the operands back.", "quantifier": "every lane value of every operand (2^64 to 2^384 inputs per intrinsic)", "why_tests_cant": "the input space is the full cross product of lane values; the repository's tests try one or two literal vectors per family", "anchors": ["neon_sim.cpp:vtrn_s8", "neon_sim.cpp:vtrnq_u32"]}
{"id": "C39", "title": "Zip and unzip are inverse", "statement": "vzip interleaves two registers, vuzp de-interleaves them, and each undoes the other.", "quantifier": "every lane value of every operand (2^64 to 2^384 inputs per intrinsic)", "why_tests_cant": "the input space is the full cross product of lane values; the repository's tests try one or two literal vectors per family", "anchors": ["neon_sim.cpp:vzip_s8", "neon_sim.cpp:vzip_u8", "neon_sim.cpp:vzip_s16", "neon_sim.cpp:vuzp_u8", "neon_sim.cpp:vuzp_s8"]}
{"id": "C40", "title": "Block reversal", "statement": "vrev16/vrev32/vrev64 reverse the lanes inside each 16/32/64-bit block; applying one twice is the identity.", "quantifier": "every lane value of every operand (2^64 to 2^384 inputs per intrinsic)", "why_tests_cant": "uninitialised or out-of-bounds lanes often hold the expected value by accident", "anchors": ["neon_sim.cpp:vrev16_u8", "neon_sim.cpp:vrev32_s8", "neon_sim.cpp:vrev32_u8", "neon_sim.cpp:vrev64q_s8", "neon_sim.cpp:vrev64q_s16", "neon_sim.cpp:vrev64q_u8"]}
{"id": "C41", "title": "Extract window", "statement": "vext gives lanes n..n+len-1 of the concatenation of the operands for every permitted n and aborts for any other n.", "quantifier": "every lane value of every operand (2^64 to 2^384 inputs per intrinsic) and every int n", "why_tests_cant": "the input space is the full cross product of lane values; the repository's tests try one or two literal vectors per family", "anchors": ["neon_sim.cpp:vext_u8", "neon_sim.cpp:vext_u16", "neon_sim.cpp:vext_s16", "neon_sim.cpp:vextq_u16"]}
{"id": "C42", "title": "Table lookup", "statement": "vtbl1/vtbl2/vtbl4/vqtbl1 return the indexed table byte, and 0 for any out-of-range index.", "quantifier": "every table and every index vector", "why_tests_cant": "the input space is the full cross product of lane values; the repository's tests try one or two literal vectors per family", "anchors": ["neon_sim.cpp:vtbl1_u8", "neon_sim.cpp:vtbl2_u8", "neon_sim.cpp:vtbl4_u8", "neon_sim.cpp:vqtbl1_u8"]}
{"id": "C43", "title": "Narrowing and widening moves", "statement": "vmovn keeps the low half, vmovl extends, vqmovn/vqmovun clamp; narrowing (plain or saturating) after widening is the identity.", "quantifier": "every lane value of every operand (2^64 to 2^384 inputs per intrinsic)", "why_tests_cant": "the input space is the full cross product of lane values; the repository's tests try one or two literal vectors per family", "anchors": ["neon_sim.cpp:vmovn_u16", "neon_sim.cpp:vmovl_s8", "neon_sim.cpp:vqmovn_u16", "neon_sim.cpp:vqmovun_s16"]}
{"id": "C44", "title": "Narrowing shift right", "statement": "vshrn_n gives the low half of the lane shifted right by n for every n in [1, w/2] and aborts for every other n.", "quantifier": "every lane value of every operand (2^64 to 2^384 inputs per intrinsic) and every int n", "why_tests_cant": "the input space is the full cross product of lane values; the repository's tests try one or two literal vectors per family", "anchors": ["neon_sim.cpp:vshrn_n_s16", "neon_sim.cpp:vshrn_n_s32", "neon_sim.cpp:vshrn_n_s64", "neon_sim.cpp:vshrn_n_u16", "neon_sim.cpp:vshrn_n_u32", "neon_sim.cpp:vshrn_n_u64"]}
{"id": "C45", "title": "Shift right", "statement": "vshr_n_u16 gives the lane shifted right by n for every n in the architectural range [1, 16].", "quantifier": "every lane value of every operand (2^64 to 2^384 inputs per intrinsic) and every n", "why_tests_cant": "n above 8 is never tried", "anchors": ["neon_sim.cpp:vshr_n_u16"]}
{"id": "C46", "title": "Saturating narrowing shift right, 16-bit", "statement": "vqshrun_n_s16 and vqrshrun_n_s16 give the (rounded) shifted lane clamped to [0,255], for n in [1,8], and abort for other n.", "quantifier": "every lane value of every operand (2^64 to 2^384 inputs per intrinsic) and every int n", "why_tests_cant": "the input space is the full cross product of lane values; the repository's tests try one or two literal vectors per family", "anchors": ["neon_sim.cpp:vqshrun_n_s16", "neon_sim.cpp:vqrshrun_n_s16"]}
{"id": "C47", "title": "Saturating narrowing shift right, 32/64-bit", "statement": "vqshrun_n_s32 and vqshrun_n_s64 give the shifted lane clamped to the unsigned narrow range.", "quantifier": "every lane value of every operand (2^64 to 2^384 inputs per intrinsic) and every n", "why_tests_cant": "the result is never written: a test sees whatever was on the stack", "anchors": ["neon_sim.cpp:vqshrun_n_s32", "neon_sim.cpp:vqshrun_n_s64"]}
{"id": "C48", "title": "Saturating shift right narrow", "statement": "vqshrn_n gives the shifted lane clamped to the narrow type for n in [1, w/2].", "quantifier": "every lane value of every operand (2^64 to 2^384 inputs per intrinsic) and every n", "why_tests_cant": "the input space is the full cross product of lane values; the repository's tests try one or two literal vectors per family", "anchors": ["neon_sim.cpp:vqshrn_n_s16", "neon_sim.cpp:vqshrn_n_s32", "neon_sim.cpp:vqshrn_n_s64", "neon_sim.cpp:vqshrn_n_u16", "neon_sim.cpp:vqshrn_n_u32", "neon_sim.cpp:vqshrn_n_u64"]}
{"id": "C49", "title": "Rounding shift right narrow", "statement": "vrshrn_n_u16 gives the low 8 bits of (lane + 2^(n-1)) >> n for n in [1,8].", "quantifier": "every lane value of every operand (2^64 to 2^384 inputs per intrinsic) and every n", "why_tests_cant": "the input space is the full cross product of lane values; the repository's tests try one or two literal vectors per family", "anchors": ["neon_sim.cpp:vrshrn_n_u16"]}
{"id": "C50", "title": "Shift right and accumulate", "statement": "vsraq_n_s32 adds b >> n to the unshifted accumulator a.", "quantifier": "every lane value of every operand (2^64 to 2^384 inputs per intrinsic) and every n", "why_tests_cant": "the input space is the full cross product of lane values; the repository's tests try one or two literal vectors per family", "anchors": ["neon_sim.cpp:vsraq_n_s32"]}
{"id": "C51", "title": "Shift left", "statement": "vshlq_n_s32 gives the lane times 2^n modulo 2^32 for n in [0,31]; vshll_n_u8 the exact widened product for n in [0,7].", "quantifier": "every lane value of every operand (2^64 to 2^384 inputs per intrinsic) and every n", "why_tests_cant": "the input space is the full cross product of lane values; the repository's tests try one or two literal vectors per family", "anchors": ["neon_sim.cpp:vshlq_n_s32", "neon_sim.cpp:vshll_n_u8"]}
{"id": "C52", "title": "Reinterpretation preserves the register bits", "statement": "vreinterpret/vreinterpretq keep the 64/128-bit register image, and reinterpreting back returns the original register.", "quantifier": "every lane value of every operand (2^64 to 2^384 inputs per intrinsic)", "why_tests_cant": "the input space is the full cross product of lane values; the repository's tests try one or two literal vectors per family", "anchors": ["neon_sim.cpp:vreinterpret_u8_s8", "neon_sim.cpp:vreinterpret_u16_u8", "neon_sim.cpp:vreinterpretq_u32_u8", "neon_sim.cpp:vreinterpretq_u8_f64"]}
{"id": "C53", "title": "Integer to float conversion", "statement": "vcvtq_f32_s32 gives the float nearest to the integer (ties to even), for all 2^32 integers.", "quantifier": "every int32 lane", "why_tests_cant": "the input space is the full cross product of lane values; the repository's tests try one or two literal vectors per family", "anchors": ["neon_sim.cpp:vcvtq_f32_s32"]}
{"id": "C54", "title": "Float to integer conversion", "statement": "vcvtq_s32_f32/vcvtq_u32_f32 truncate toward zero and saturate out-of-range values (NaN to 0).", "quantifier": "every float bit pattern", "why_tests_cant": "the input space is the full cross product of lane values; the repository's tests try one or two literal vectors per family", "anchors": ["neon_sim.cpp:vcvtq_s32_f32", "neon_sim.cpp:vcvtq_u32_f32"]}
{"id": "C55", "title": "Rounding float to integer conversion", "statement": "vcvtnq_s32_f32 rounds to the nearest integer, ties to even.", "quantifier": "every float bit pattern", "why_tests_cant": "the input space is the full cross product of lane values; the repository's tests try one or two literal vectors per family", "anchors": ["neon_sim.cpp:vcvtnq_s32_f32"]}
{"id": "C56", "title": "Reciprocal estimate accuracy", "statement": "vrecpeq_f32 is within relative error 2^-8 of 1/x for every normal x whose reciprocal estimate is normal, and keeps the sign.", "quantifier": "all 2^32 float bit patterns", "why_tests_cant": "four literals are tested out of 2^32", "anchors": ["neon_sim.cpp:vrecpeq_f32", "neon_sim.cpp:FPRecipEstimate", "neon_sim.cpp:RecipEstimate"]}
{"id": "C57", "title": "Reciprocal estimate special values", "statement": "vrecpeq_f32 maps +-0 to +-infinity, +-infinity to +-0 and NaN to NaN, and never produces NaN from a number.", "quantifier": "all special bit patterns", "why_tests_cant": "the input space is the full cross product of lane values; the repository's tests try one or two literal vectors per family", "anchors": ["neon_sim.cpp:vrecpeq_f32", "neon_sim.cpp:FPRecipEstimate"]}
{"id": "C58", "title": "Float arithmetic is lane-wise IEEE", "statement": "vaddq_f32, vsub_f32, vmulq_f32, vmul_n_f32, vmlaq_f32, vdiv_f32, ... compute in lane i the correctly rounded IEEE-754 operation of the i-th operands, independent of all other lanes.", "quantifier": "every float bit pattern in every lane", "why_tests_cant": "the input space is the full cross product of lane values; the repository's tests try one or two literal vectors per family", "anchors": ["neon_sim.cpp:vaddq_f32", "neon_sim.cpp:vsub_f32", "neon_sim.cpp:vmulq_f32", "neon_sim.cpp:vmulq_n_f64", "neon_sim.cpp:vmlaq_f32", "neon_sim.cpp:vmlaq_n_f32", "neon_sim.cpp:vdivq_f64", "neon_sim.cpp:vrecpsq_f32"]}
{"id": "C59", "title": "Freedom from undefined behaviour", "statement": "Intrinsics that take only registers have no undefined behaviour on any input.", "quantifier": "every lane value of every operand (2^64 to 2^384 inputs per intrinsic)", "why_tests_cant": "undefined behaviour usually does not show in a test", "anchors": ["neon_sim.cpp:vadd_s32", "neon_sim.cpp:vmul_u16", "neon_sim.cpp:vmull_u16", "neon_sim.cpp:vqsub_s64", "neon_sim.cpp:vrev32_s8", "neon_sim.cpp:vqtbl1_u8"]}
{"id": "C60", "title": "Returned registers are fully defined", "statement": "Every intrinsic that returns normally returns a register in which every lane was written.", "quantifier": "every lane value of every operand (2^64 to 2^384 inputs per intrinsic)", "why_tests_cant": "an indeterminate lane can hold the expected value by accident", "anchors": ["neon_sim.cpp:vrev64q_s8", "neon_sim.cpp:vrev64q_s16", "neon_sim.cpp:vqshrun_n_s32", "neon_sim.cpp:vqshrun_n_s64"]}
{"id": "C61", "title": "Widening arithmetic factors through widening moves", "statement": "vaddl(a,b) = vaddq(vmovl a, vmovl b), vaddw(a,b) = vaddq(a, vmovl b), vsubl/vsubw and vmull likewise, vmlal(acc,a,b) = vaddq(acc, vmull(a,b)).", "quantifier": "every lane value of every operand (2^64 to 2^384 inputs per intrinsic)", "why_tests_cant": "the input space is the full cross product of lane values; the repository's tests try one or two literal vectors per family", "anchors": ["neon_sim.cpp:vaddl_u8", "neon_sim.cpp:vmovl_u8", "neon_sim.cpp:vaddq_u16", "neon_sim.cpp:vsubw_s8", "neon_sim.cpp:vmlal_s8", "neon_sim.cpp:vmull_u8"]}
{"id": "C62", "title": "Lane-wise operations commute with lane permutations", "statement": "Reversing, zipping or transposing operands and then applying a lane-wise operation equals applying it first and permuting the result.", "quantifier": "every lane value of every operand (2^64 to 2^384 inputs per intrinsic)", "why_tests_cant": "the input space is the full cross product of lane values; the repository's tests try one or two literal vectors per family", "anchors": ["neon_sim.cpp:vrev64_u8", "neon_sim.cpp:vzip_u8", "neon_sim.cpp:vtrn_u8", "neon_sim.cpp:vadd_u8", "neon_sim.cpp:vqsub_u8", "neon_sim.cpp:vand_u8"]}
{"id": "C63", "title": "Algebraic laws of wrapping arithmetic", "statement": "On unsigned lanes vadd/vsub/vmul form a commutative ring modulo 2^width: associativity, commutativity, distributivity, vsub(vadd(a,b),b)=a; vmla(acc,a,b) = vadd(acc, vmul(a,b)).", "quantifier": "every lane value of every operand (2^64 to 2^384 inputs per intrinsic)", "why_tests_cant": "the input space is the full cross product of lane values; the repository's tests try one or two literal vectors per family", "anchors": ["neon_sim.cpp:vadd_u8", "neon_sim.cpp:vsub_u8", "neon_sim.cpp:vmul_u8", "neon_sim.cpp:vmlaq_u8", "neon_sim.cpp:vmulq_u8"]}
{"id": "C64", "title": "Saturation laws", "statement": "vqsub_u8(a,b)=0 iff a<=b lanewise; vqadd is commutative and monotone; vqadd(vqsub(a,b),b) = max(a,b) on u8; saturating and wrapping results agree when no lane overflows.", "quantifier": "every lane value of every operand (2^64 to 2^384 inputs per intrinsic)", "why_tests_cant": "the input space is the full cross product of lane values; the repository's tests try one or two literal vectors per family", "anchors": ["neon_sim.cpp:vqadd_u8", "neon_sim.cpp:vqsub_u8", "neon_sim.cpp:vadd_u8", "neon_sim.cpp:vsub_u8"]}
{"id": "C65", "title": "Link coverage", "statement": "Every function declared in neon_sim.h is defined in neon_sim.cpp with the declared signature.", "quantifier": "all 1944 distinct declarations of the header that are active without __fp16", "why_tests_cant": "tests only link what they call", "anchors": ["neon_sim.h", "neon_sim.cpp"]}
{"id": "C66", "title": "Newton-Raphson reciprocal refinement", "statement": "One step vmulq(vrecps(x,e),e) from e=vrecpe(x) brings the relative error below 2^-15 for every normal x whose estimate is normal.", "quantifier": "all such float bit patterns", "why_tests_cant": "the input space is the full cross product of lane values; the repository's tests try one or two literal vectors per family", "anchors": ["neon_sim.cpp:vrecpeq_f32", "neon_sim.cpp:vrecpsq_f32", "neon_sim.cpp:vmulq_f32"]}
{"id": "C67", "title": "Loops over buffers of any length", "statement": "A loop that loads blocks, applies a lane-wise intrinsic and stores the results applies the operation to every element of the buffer, also when the destination is one of the sources; an accumulation loop folds the operation over the elements of each lane. Where an element operation is undefined the loop is.", "quantifier": "every buffer length (any number of blocks), every buffer content, every intrinsic listed", "why_tests_cant": "a test runs a few fixed lengths", "anchors": ["neon_sim.cpp:vld1q_u8", "neon_sim.cpp:vst1q_u8", "neon_sim.cpp:vaddq_u8", "neon_sim.cpp:vqsubq_u8", "neon_sim.cpp:vmull_u8", "neon_sim.cpp:vmlal_u8", "neon_sim.cpp:vmovl_u8"]}
{"id": "C68", "title": "Programs composed of intrinsics", "statement": "Usual NEON programs compute what they are meant to: RGB to grey by weighted sum, channel exchange in place, row reversal, byte sum and dot product modulo 2^32, 4x4 transposition, absolute difference and unsigned max/min from saturating subtraction.", "quantifier": "every image or vector length and content", "why_tests_cant": "the input space is the full cross product of lane values; the repository's tests try one or two literal vectors per family", "anchors": ["neon_sim.cpp:vld3_u8", "neon_sim.cpp:vmull_u8", "neon_sim.cpp:vmlal_u8", "neon_sim.cpp:vshrn_n_u16", "neon_sim.cpp:vst3q_u8", "neon_sim.cpp:vrev64q_u8", "neon_sim.cpp:vpaddlq_u8", "neon_sim.cpp:vtrnq_u32", "neon_sim.cpp:vqsubq_u8"]}
{"id": "C69", "title": "Signed arithmetic is exact whenever it is defined", "statement": "If the mathematical result of every lane (and every intermediate result) fits the type it is computed in, the signed 32/64-bit intrinsics return exactly that result with any compiler flags; otherwise the call is undefined in C++11.", "quantifier": "every lane value of every operand (2^64 to 2^384 inputs per intrinsic)", "why_tests_cant": "overflow at the boundary is not tried and often looks right", "anchors": ["neon_sim.cpp:vadd_s32", "neon_sim.cpp:vsubq_s64", "neon_sim.cpp:vmul_s32", "neon_sim.cpp:vmull_s32", "neon_sim.cpp:vmlal_s16", "neon_sim.cpp:vmlaq_s32", "neon_sim.cpp:vaddw_s16"]}
{"id": "C70", "title": "Wrapping arithmetic with -fwrapv", "statement": "Compiled so that signed overflow wraps, every intrinsic of the add, subtract and multiply families is defined for all operands and gives the result modulo 2^width of the type it is computed in.", "quantifier": "every lane value of every operand (2^64 to 2^384 inputs per intrinsic)", "why_tests_cant": "the input space is the full cross product of lane values; the repository's tests try one or two literal vectors per family", "anchors": ["neon_sim.cpp:vadd_s32", "neon_sim.cpp:vsubq_s64", "neon_sim.cpp:vmul_u16", "neon_sim.cpp:vmull_s32", "neon_sim.cpp:vmlal_s16", "neon_sim.cpp:vmlaq_s32"]}
{"id": "C71", "title": "64-bit saturating subtraction is accurate to rounding", "statement": "When vqsub(q)_s64/u64 returns, it differs from the exact saturated difference by at most the rounding of double (3072), is exact when all values are below 2^53, has the right sign, and vqsub(a,a) = 0.", "quantifier": "every lane value of every operand (2^64 to 2^384 inputs per intrinsic)", "why_tests_cant": "needs operands above 2^53", "anchors": ["neon_sim.cpp:vqsub_s64", "neon_sim.cpp:vqsub_u64", "neon_sim.cpp:vqsubq_s64", "neon_sim.cpp:vqsubq_u64"]}
{"id": "C72", "title": "Reciprocal step", "statement": "vrecpsq_f32(a,b) is 2 - a*b, with product and difference rounded once each, and 2.0 when one operand is infinite and the other zero.", "quantifier": "all pairs of float bit patterns", "why_tests_cant": "the input space is the full cross product of lane values; the repository's tests try one or two literal vectors per family", "anchors": ["neon_sim.cpp:vrecpsq_f32"]}
{"id": "C73", "title": "Convergence of Newton-Raphson refinement", "statement": "A step vmulq(vrecps(x,e),e) squares the relative error of e up to rounding; two steps from vrecpe(x) reach 2^-20.", "quantifier": "all float bit patterns in the normal range", "why_tests_cant": "the input space is the full cross product of lane values; the repository's tests try one or two literal vectors per family", "anchors": ["neon_sim.cpp:vrecpeq_f32", "neon_sim.cpp:vrecpsq_f32", "neon_sim.cpp:vmulq_f32"]}
{"id": "C74", "title": "Memory after any history of stores", "statement": "After any sequence of store intrinsics through pointers into a buffer, each element is the one the last store writing it wrote, or what it was before if no store writes it; the sequence is defined exactly when every store has its room in the buffer and a valid lane number. The elements a store writes are those of its interleaved block, except that vst4_u8 and vst4_u32 misplace register 3 (and need 33 and 7 elements).", "quantifier": "every sequence of store calls, of any length, at any offsets", "why_tests_cant": "the input space is the full cross product of lane values; the repository's tests try one or two literal vectors per family", "anchors": ["neon_sim.cpp:vst1_u8", "neon_sim.cpp:vst2_u8", "neon_sim.cpp:vst3q_u16", "neon_sim.cpp:vst4_u8", "neon_sim.cpp:vst4q_lane_f32"]}
{"id": "C75", "title": "Calls terminate with the outcome of the source text", "statement": "Every call of a function defined in neon_sim.cpp terminates, with any arguments, and its effect (the returned value, the changed memory, the message of an abort, undefined behaviour, an indeterminate lane) is the one that executing the text of its definition by the C++ rules gives; no loop counter or index computation overflows.", "quantifier": "every function definition of the file; every argument, including every int immediate and every pointer", "why_tests_cant": "the input space is the full cross product of lane values; the repository's tests try one or two literal vectors per family", "anchors": ["neon_sim.cpp:vld1_u8", "neon_sim.cpp:vst4_u8", "neon_sim.cpp:vqsub_s64", "neon_sim.cpp:vext_s8", "neon_sim.cpp:vtbl4_u8", "neon_sim.cpp:vbslq_u8", "neon_sim.cpp:RecipEstimate", "neon_sim.cpp:FPRecipEstimate", "neon_sim.cpp:vrecpeq_f32"]}
{"id": "C76", "title": "Programs run on the simulator as on the hardware", "statement": "A program that calls intrinsics on registers and on pointers into buffers, in sequence, under conditions and in loops, completes on the simulator without abort and undefined behaviour, and ends in a state that the meaning of the intrinsics in the Arm architecture allows, whenever that meaning makes it defined. What is proved of a program from the architecture's rules therefore holds when it is linked with the simulator.", "quantifier": "every program over the intrinsics, every initial memory, every number of loop iterations", "why_tests_cant": "programs are unbounded compositions; a test runs one", "anchors": ["neon_sim.cpp:vld1_u8", "neon_sim.cpp:vst1_u8", "neon_sim.cpp:vmull_u8", "neon_sim.cpp:vqadd_u8", "neon_sim.cpp:vaddq_f32", "neon_sim.cpp:vcvtq_s32_f32"]}
{"id": "C77", "title": "A client program verified against the architecture computes on the simulator what it should", "statement": "The RGB to grey loop over vld3, vmull, vmlal, vshrn and vst1, verified from the architecture's rules alone, computes the weighted sum of every pixel and writes nothing else when run with the texts of neon_sim.cpp.", "quantifier": "every image size (any number of 8-pixel blocks), contents and pointer offset", "why_tests_cant": "the input space is the full cross product of lane values; the repository's tests try one or two literal vectors per family", "anchors": ["neon_sim.cpp:vdup_n_u8", "neon_sim.cpp:vld3_u8", "neon_sim.cpp:vmull_u8", "neon_sim.cpp:vmlal_u8", "neon_sim.cpp:vshrn_n_u16", "neon_sim.cpp:vst1_u8"]}
{"id": "C78", "title": "Calls with arguments of the declared types have one outcome, of the declared type", "statement": "A call of a function with arguments of the types it declares has exactly one outcome: a value of its return type (for a store: the same memory, neither moved nor resized), its own range-check message followed by abort, or undefined behaviour. Only vrev64q_s8, vrev64q_s16 and vqshrun_n_s32/s64 may return lanes that were never written.", "quantifier": "every function defined in neon_sim.cpp; every argument list of the declared types, including every int immediate and every pointer into a buffer of any size", "why_tests_cant": "the input space is the full cross product of lane values; the repository's tests try one or two literal vectors per family", "anchors": ["neon_sim.cpp:vld1_u8", "neon_sim.cpp:vst4_u8", "neon_sim.cpp:vshrn_n_u16", "neon_sim.cpp:vext_u8", "neon_sim.cpp:vrev64q_s8", "neon_sim.cpp:vget_lane_f32"]}
{"id": "C79", "title": "Programs that a compiler accepts have one outcome", "statement": "A program over the intrinsics that names only defined functions, passes arguments of the declared types and uses no variable before it has a value, has exactly one outcome: it ends with every variable of its type and every buffer of its element type and size, or aborts with the message of a function that it calls, or is undefined, or calls one of the four functions that leave lanes unwritten.", "quantifier": "every program of calls, stores, conditions and loops, every initial state of the declared types, every number of iterations", "why_tests_cant": "programs are unbounded compositions; a test runs one", "anchors": ["neon_sim.cpp:vdup_n_u8", "neon_sim.cpp:vld3_u8", "neon_sim.cpp:vmull_u8", "neon_sim.cpp:vmlal_u8", "neon_sim.cpp:vshrn_n_u16", "neon_sim.cpp:vst1_u8"]}
{"id": "C80", "title": "Exactly which operands the defective intrinsics get right", "statement": "The results of the intrinsics that deviate from the Arm architecture can be trusted on a known set of operands, and on no others: vaddl_high, vmull, vmull_n, vmlal, vmlsl and vhsub of 32-bit lanes exactly when sums, products or differences fit in 32 bits; vmaxq/vminq of unsigned lanes exactly when the two lanes have the same top bit; vsubn and vaddhn_high exactly when the two bit ranges coincide; vsraq_n_s32 exactly on accumulators 0 and -1; vrsubhn of 64-bit lanes and vrev32_s8 never; vshr_n_u16 up to shift 8; vqshrn_n_s64 when the shifted lane does not exceed the maximum or has its low bits; vqtbl1_u8 for indices below 16; vbslq_f32 when the operands agree where the mask is zero; float max/min except NaN in the first operand only and zeros of different sign in one order; float to integer conversion when the rounded value fits; vst4_u8/u32 when the memory already holds what they fail to write.", "quantifier": "every lane value of every operand (2^64 to 2^384 inputs per intrinsic)", "why_tests_cant": "a test shows that some operands are right or wrong, not that all others are", "anchors": ["neon_sim.cpp:vaddl_high_s32", "neon_sim.cpp:vmull_u32", "neon_sim.cpp:vmlal_s32", "neon_sim.cpp:vhsub_u32", "neon_sim.cpp:vmaxq_u8", "neon_sim.cpp:vsubn_u32", "neon_sim.cpp:vaddhn_high_s64", "neon_sim.cpp:vsraq_n_s32", "neon_sim.cpp:vrsubhn_u64", "neon_sim.cpp:vshr_n_u16", "neon_sim.cpp:vqshrn_n_s64", "neon_sim.cpp:vqtbl1_u8", "neon_sim.cpp:vbslq_f32", "neon_sim.cpp:vmaxq_f32", "neon_sim.cpp:vpmin_f32", "neon_sim.cpp:vcvtnq_s32_f32", "neon_sim.cpp:vst4_u8", "neon_sim.cpp:vst4_u32"]}
{"id": "C81", "title": "The comparisons of the project's tests decide what they claim", "statement": "almostEqual returns true exactly when no lane of the two registers differs by more than the tolerance (with the default tolerance: exactly when they are equal); otherwise it reports the first lane that does, with both values. It always returns.", "quantifier": "every pair of registers (or vectors of any length) and every tolerance, including NaN", "why_tests_cant": "the tests use the comparison; no test tests it", "anchors": ["tests/test_util.hpp:almostEqual"]}
{"id": "C82", "title": "Printed registers can be read back", "statement": "Printing a register with the stream operator of the tests writes its lanes in order, separated by a comma and a blank, integers in decimal (bytes too, not as characters), and printing a tuple writes one register per line; two integer registers or tuples print the same only if they are equal. What was written before stays.", "quantifier": "every register and tuple type with an operator (80), every content, every state of the stream", "why_tests_cant": "the operators are only used to report failures; no test reads what they print", "anchors": ["tests/neon_helper.hpp:operator<<"]}
{"id": "C83", "title": "Laws of float arithmetic", "statement": "Without overflow a sum or difference has a relative error of at most half a unit in the last place (2^-24, for double 2^-53), a product or quotient too, or an absolute error of half the smallest number. x+0, x-0, x*1 and x/1 are x, x-x is 0, x/x is 1, x+x is 2*x, x-y and y-x are opposite; sums, differences, products and quotients are monotone; the difference of numbers within a factor of two is exact; integers up to 2^24 (2^53) are exact.", "quantifier": "every float bit pattern in every lane", "why_tests_cant": "the input space is the full cross product of lane values; the repository's tests try one or two literal vectors per family", "anchors": ["neon_sim.cpp:vaddq_f32", "neon_sim.cpp:vsub_f32", "neon_sim.cpp:vsubq_f32", "neon_sim.cpp:vmulq_f32", "neon_sim.cpp:vmul_n_f32", "neon_sim.cpp:vmulq_n_f64", "neon_sim.cpp:vdivq_f32", "neon_sim.cpp:vdivq_f64"]}
{"id": "C84", "title": "Accumulated rounding error of float sums and scalar products", "statement": "Accumulating any number n of registers with vaddq_f32 gives in every lane a number that differs from the exact sum by at most ((1+2^-24)^n-1) times the sum of the magnitudes, unless that can overflow; with vmlaq_f32 the scalar product likewise, with the rounding of the products added. The same holds for the loops that load the operands from arrays.", "quantifier": "every number of registers or array length, every finite content", "why_tests_cant": "a test adds a few literals whose sums are exact", "anchors": ["neon_sim.cpp:vaddq_f32", "neon_sim.cpp:vmlaq_f32", "neon_sim.cpp:vld1q_f32"]}
{"id": "C85", "title": "Bitwise intrinsics form a Boolean algebra", "statement": "vand, vorr, veor and vmvn satisfy the laws of a Boolean algebra as outcomes of calls: commutativity, associativity, idempotence, absorption, distributivity, neutral elements, complements; veor is the union without the intersection; vbslq_u8(m,a,b) is (m and a) or (not m and b), equal to ((a xor b) and m) xor b, keeps equal operands, and exchanges its operands when the mask is complemented.", "quantifier": "every lane value of every operand (2^64 to 2^384 inputs per intrinsic)", "why_tests_cant": "the input space is the full cross product of lane values; the repository's tests try one or two literal vectors per family", "anchors": ["neon_sim.cpp:vand_u8", "neon_sim.cpp:vorrq_s16", "neon_sim.cpp:veorq_u32", "neon_sim.cpp:vmvn_s8", "neon_sim.cpp:vbslq_u8"]}
{"id": "C86", "title": "Composition of lane permutations", "statement": "Windows (vext) of windows of a stream of registers are windows whose offsets add up; with equal operands vext rotates, and rotations add up modulo the number of lanes; vzip and vuzp repeated give back the operands after as many steps as the perfect shuffle has; reversals of blocks of different sizes commute; lookups (vtbl1) compose like functions, vrev64 and vext are lookups, and a table of four registers is two tables of two.", "quantifier": "every lane content, every offset, every index vector", "why_tests_cant": "the input space is the full cross product of lane values; the repository's tests try one or two literal vectors per family", "anchors": ["neon_sim.cpp:vext_u8", "neon_sim.cpp:vextq_u16", "neon_sim.cpp:vzip_u8", "neon_sim.cpp:vuzp_s8", "neon_sim.cpp:vrev16_u8", "neon_sim.cpp:vrev64_u8", "neon_sim.cpp:vtbl1_u8", "neon_sim.cpp:vtbl2_u8", "neon_sim.cpp:vtbl4_u8"]}
{"id": "C87", "title": "Round trips between integers and floats", "statement": "Converting an int register to float and back is defined exactly when no lane exceeds 2147483583; it then changes no lane by more than 64, and none of magnitude up to 2^24. Converting a float register to int and back rounds every lane toward zero, exactly. Conversion to float is monotone with a relative error of at most 2^-24.", "quantifier": "every lane value of every operand (2^64 to 2^384 inputs per intrinsic)", "why_tests_cant": "needs lanes beyond 2^24 and near INT_MAX", "anchors": ["neon_sim.cpp:vcvtq_f32_s32", "neon_sim.cpp:vcvtq_s32_f32"]}
{"id": "C88", "title": "Sorting registers with minimum and maximum", "statement": "Sifting any number of registers through vminq/vmaxq of signed lanes leaves in every lane the same elements in ascending order; for unsigned bytes the same holds with minimum and maximum built from saturating subtraction, and not with vminq_u8 and vmaxq_u8, which compare signed bytes.", "quantifier": "every number of registers, every content", "why_tests_cant": "a test sorts a few registers", "anchors": ["neon_sim.cpp:vminq_s8", "neon_sim.cpp:vmaxq_s8", "neon_sim.cpp:vminq_s16", "neon_sim.cpp:vmaxq_s32", "neon_sim.cpp:vqsubq_u8", "neon_sim.cpp:vmaxq_u8", "neon_sim.cpp:vminq_u8"]}
{"id": "C89", "title": "Prefix sums over arrays", "statement": "A scan of each register by vextq_u16 and vaddq_u16, with the last lane carried to the next block, stores at every index the sum of the elements up to it modulo 2^16, exactly when the total fits, and writes nothing else.", "quantifier": "every array length (any number of blocks) and content", "why_tests_cant": "the input space is the full cross product of lane values; the repository's tests try one or two literal vectors per family", "anchors": ["neon_sim.cpp:vextq_u16", "neon_sim.cpp:vaddq_u16", "neon_sim.cpp:vdupq_n_u16", "neon_sim.cpp:vgetq_lane_u16", "neon_sim.cpp:vld1q_u16", "neon_sim.cpp:vst1q_u16"]}
{"id": "C90", "title": "Sliding-window filters and blending", "statement": "A filter of up to 8 taps over windows by vext_u8 with vmlal_u8 and vrshrn_n_u16 gives the weighted sum of each window divided by 2^s and rounded to nearest, whenever the weights add up to at most 2^s; blending two images by vmull_u8, vmlal_u8, vmvn_u8, vrshrn_n_u16 gives (a*f+(255-a)*b+128)/256 and stays between the operands up to 1.", "quantifier": "every array length and content, every filter of at most 8 taps, every shift", "why_tests_cant": "the input space is the full cross product of lane values; the repository's tests try one or two literal vectors per family", "anchors": ["neon_sim.cpp:vext_u8", "neon_sim.cpp:vmlal_u8", "neon_sim.cpp:vmull_u8", "neon_sim.cpp:vdup_n_u8", "neon_sim.cpp:vmvn_u8", "neon_sim.cpp:vrshrn_n_u16"]}
{"id": "C91", "title": "Byte array programs", "statement": "A table of 256 bytes looked up by eight vtbl4_u8 replaces every byte by its entry; vrev32q_u8 exchanges the byte order of every 32-bit word; thresholding by vcgtq_u8 and vbslq_u8, filling by vdupq_n_u8 and moving towards the start of a buffer by vld1q_u8 and vst1q_u8 work for every length and distance, overlap included; moving towards the end works when the regions do not overlap and fails when they do.", "quantifier": "every array length, content, table and distance", "why_tests_cant": "the input space is the full cross product of lane values; the repository's tests try one or two literal vectors per family", "anchors": ["neon_sim.cpp:vtbl4_u8", "neon_sim.cpp:vorr_u8", "neon_sim.cpp:vsub_u8", "neon_sim.cpp:vrev32q_u8", "neon_sim.cpp:vcgtq_u8", "neon_sim.cpp:vbslq_u8", "neon_sim.cpp:vdupq_n_u8", "neon_sim.cpp:vld1q_u8", "neon_sim.cpp:vst1q_u8"]}
{"id": "C92", "title": "Accuracy of numeric programs", "statement": "Dividing by vrecpe, two Newton steps and a multiplication has a relative error of at most 2^-19 for divisors of normal estimate; Horner's rule by vmlaq_f32 and the product of a matrix and a vector by vmlaq_n_f32 have explicit error bounds for every degree and number of columns; folding vmaxq_f32 or vminq_f32 over registers without NaN gives one of the operands that no operand exceeds (undercuts).", "quantifier": "every finite operand without overflow; every degree, number of columns, number of registers and array length", "why_tests_cant": "a test evaluates a few literals", "anchors": ["neon_sim.cpp:vrecpeq_f32", "neon_sim.cpp:vrecpsq_f32", "neon_sim.cpp:vmulq_f32", "neon_sim.cpp:vmlaq_f32", "neon_sim.cpp:vmlaq_n_f32", "neon_sim.cpp:vmaxq_f32", "neon_sim.cpp:vminq_f32"]}
{"id": "C93", "title": "Integer expressions of the intrinsics follow the rules of C++11", "statement": "Every operator that the definitions use on integers (+, -, *, /, %, <<, >>, &, |, ^, ~, comparisons, std::min and std::max, casts, && and ||, assignment to a lane or a buffer element) promotes and converts its operands as the language says, yields the exact value when it fits, wraps when the type is unsigned, and is undefined on signed overflow (unless it wraps by a flag), on division by zero or with a quotient that does not fit, and on shifts by a negative amount or one not below the width.", "quantifier": "all eight integer types on each side, all values", "why_tests_cant": "the input space is the full cross product of lane values; the repository's tests try one or two literal vectors per family", "anchors": ["neon_sim.cpp:vmlal_s16", "neon_sim.cpp:vabd_u8", "neon_sim.cpp:vhadd_s32", "neon_sim.cpp:vrshr_n_s8", "neon_sim.cpp:vqshl_n_s32", "neon_sim.cpp:vqdmulh_s16", "neon_sim.cpp:RecipEstimate"]}
{"id": "C94", "title": "An execution has one outcome and keeps the types", "statement": "The outcome of running the text of a definition does not depend on how many steps it is given, once they are enough; every value of an expression and every variable, lane and element always holds a value of its declared type; a block leaves no variable behind; what a function of the library returns has the type it declares.", "quantifier": "every expression, statement and function of the C++ subset, every state; every function definition of neon_sim.cpp", "why_tests_cant": "the input space is the full cross product of lane values; the repository's tests try one or two literal vectors per family", "anchors": ["neon_sim.cpp:vld1_u8", "neon_sim.cpp:vst4_u8", "neon_sim.cpp:vqsub_s64", "neon_sim.cpp:vtbl4_u8", "neon_sim.cpp:RecipEstimate", "neon_sim.cpp:float_parts"]}
{"id": "C95", "title": "The definitions are read as C++ reads them", "statement": "The text of every definition in neon_sim.cpp splits into tokens in one way only, that of the lexical rules of C++ (longest match, comments and white space skipped), and its tokens form a function definition in one way only: operators group by precedence and from the left, casts and unary operators bind closer, an else belongs to the nearest if, literals have the first type that holds them. The meaning established for a function is that of this one tree.", "quantifier": "every text and every list of tokens (the grammar is unambiguous and the reader agrees with it on all texts it accepts); every function definition of neon_sim.cpp", "why_tests_cant": "a test checks what the compiler's reading computes on a few inputs", "anchors": ["neon_sim.cpp:vadd_s8", "neon_sim.cpp:vqsub_s64", "neon_sim.cpp:vrshrn_n_u16", "neon_sim.cpp:vst4_u8", "neon_sim.cpp:vext_s8", "neon_sim.cpp:vtbl4_u8", "neon_sim.cpp:RecipEstimate", "neon_sim.cpp:FPRecipEstimate"]}
{"id": "C96", "title": "The definitions execute as the abstract machine of C++ does", "statement": "Calling a function of neon_sim.cpp with arguments of its declared types has exactly one outcome on the abstract machine of C++ (objects are bytes in a memory, names denote objects, operands are evaluated in any order, promoted and converted, statements run in order), or undefined behaviour in every order: the returned bytes, the memory after a store, the message and abort, or the undefined operation, that the other properties state.", "quantifier": "every function of neon_sim.cpp and all arguments of its declared types; every text of the subset that the interpreter accepts; both rules for signed overflow", "why_tests_cant": "a test observes one compiler's translation of one call, not what the standard says of all of them", "anchors": ["neon_sim.cpp", "neon_sim.h"]}
{"id": "C97", "title": "The definitions obey the static rules of C++", "statement": "Every function definition of neon_sim.cpp has types throughout: operands of %, &, |, ^, ~ and << are integers, subscripts are integers, every name is declared with the type its use needs, the two arguments of std::min and std::max have one type, a value is returned on every path and has the declared type; and no execution of a function that obeys these rules, with arguments of its declared types, reaches an operation without a meaning.", "quantifier": "every function definition that obeys the rules, all arguments of its parameter types, every number of steps; every translation unit that obeys them, to any depth of calls; all 537 definitions of neon_sim.cpp that call no other function of the file, and the unit of float_parts, whose functions call each other", "why_tests_cant": "a compiler checks the rules it implements for the instances it sees; that they suffice for all executions is a theorem about the rules", "anchors": ["neon_sim.cpp"]}
{"id": "C98", "title": "The filter selects the tests whose names match", "statement": "With --filter=PATTERN the test runner runs the tests whose names match the pattern, where * stands for any characters, and no others: a name that does not match is never run; a pattern without * selects exactly the name, SET.* all tests of a set, *.NAME all tests of that name, and without the option every test runs. The matching always ends and reads neither string past its end.", "quantifier": "every pattern and every name, of any length", "why_tests_cant": "a test tries a few patterns", "anchors": ["tests/utest.h:utest_should_filter_test"]}
{"id": "C99", "title": "Every selected test runs exactly once, in a definite order", "statement": "A run of the test program that is not cut short calls each selected test exactly once and no other test: in the order of registration, or with --random-order in an order that is a permutation of it, determined by the seed (the given one, or one made from the clock) and the number of tests alone. --help and --list-tests run no test.", "quantifier": "every list of registered tests, every combination of command line arguments, every seed, every behaviour of the tests (passing, failing, skipping, throwing, killing the process) on a shared state", "why_tests_cant": "schedules are unbounded; a test run is one", "anchors": ["tests/utest.h:utest_main", "tests/utest.h:UTEST_MAIN"]}
{"id": "C100", "title": "The report and the exit status tell what happened", "statement": "The report of a run names each test that ran, once, with its verdict and its time, and then the numbers of tests that ran and passed and the names of those skipped and failed; a test that throws counts as failed; the XML file lists the tests that ran; and the exit status is zero exactly if no test failed.", "quantifier": "every list of tests, every outcome of each, every reading of the clock, every combination of arguments", "why_tests_cant": "a test run shows one report", "anchors": ["tests/utest.h:utest_main"]}
{"id": "C101", "title": "A test passes exactly if its checks held", "statement": "A test is reported as passed exactly if it ran to its end and every check that it executed held; each failed check is reported with its file and line, and the check evaluates its arguments once; a failed ASSERT ends the test, a failed EXPECT does not; a fixture is set up before and torn down after each test; every instance of an indexed test has its own name and index; EXPECT_NEAR passes exactly if the two numbers differ by at most the tolerance.", "quantifier": "every sequence of checks and other statements on any state, every fixture, every number of instances, every triple of doubles including NaN and infinities", "why_tests_cant": "the checks decide the verdict of every test; no test tests them", "anchors": ["tests/utest.h:EXPECT_TRUE", "tests/utest.h:EXPECT_EQ", "tests/utest.h:ASSERT_TRUE", "tests/utest.h:EXPECT_NEAR", "tests/utest.h:UTEST_SKIP", "tests/utest.h:UTEST", "tests/utest.h:UTEST_F", "tests/utest.h:UTEST_I"]}
{"id": "C102", "title": "Checks of strings and exceptions judge and report rightly", "statement": "EXPECT_STREQ passes exactly if both strings are there and equal, EXPECT_STRNE if both are there and differ, EXPECT_STRNEQ and EXPECT_STRNNE compare the first n characters, and none reads a string past its end; EXPECT_EXCEPTION passes exactly if its statement, executed once, throws an exception of the type, and lets no exception out; a failure of these, and of EXPECT_EQ and the like, prints what was expected and what was there.", "quantifier": "all pairs of strings of any length, null pointers, every n, every statement and exception type, all texts of arguments", "why_tests_cant": "the checks decide the verdict of every test; no test tests them", "anchors": ["tests/utest.h:EXPECT_STREQ", "tests/utest.h:EXPECT_STRNE", "tests/utest.h:EXPECT_STRNEQ", "tests/utest.h:EXPECT_STRNNE", "tests/utest.h:EXPECT_EXCEPTION", "tests/utest.h:EXPECT_EQ"]}
{"id": "C103", "title": "Comparison checks compare numbers and report them", "statement": "EXPECT_EQ, NE, LT, LE, GT and GE, and their ASSERT forms, pass exactly if the relation holds of the two numbers, whatever the arithmetic types of the arguments; a failure prints both numbers, integers in decimal and in full, floating-point numbers rounded to six places, so that the reader sees how they differ.", "quantifier": "all pairs of values of all pairs of arithmetic types, including NaN, infinities and zeros, all six relations", "why_tests_cant": "the checks decide the verdict of every test; no test tests them", "anchors": ["tests/utest.h:UTEST_EXPECT", "tests/utest.h:UTEST_ASSERT", "tests/utest.h:utest_type_printer", "tests/utest.h:EXPECT_EQ"]}
{"id": "C104", "title": "The project's test program reports success", "statement": "Running the test program of the project runs the tests selected by the options, each once, whatever the order in which their initializers registered them; none of them runs into undefined behaviour, with or without -fwrapv, each executes at least one check, all 55 checks hold, every test that runs is reported as passed, none prints anything else, and the exit status is 0.", "quantifier": "all command lines that run tests, all orders of registration (the order across source files is unspecified) and of execution (every seed), all clocks and kinds of terminal, both dialects of signed overflow", "why_tests_cant": "one run shows one order, one clock and one command line; a test that relies on the order or on undefined behaviour passes in some of them", "anchors": ["tests/test_vadd.cpp:TEST", "tests/test_sub.cpp:TEST", "tests/test_util.hpp:almostEqual", "tests/utest.h:UTEST", "tests/utest.h:utest_main"]}
{"id": "C105", "title": "A check evaluates its arguments once", "statement": "A check of the test runner evaluates each of its arguments exactly once, whether it passes or fails, and judges and prints the values of that evaluation, on standard output and in the XML file alike; so an argument may have side effects (read the next line, advance an iterator).", "quantifier": "all checks, all arguments (functions that return a value and change the state in any way), all states, with and without an XML file, all orders in which the arguments of a call are evaluated", "why_tests_cant": "tests use arguments without side effects, for which the number of evaluations does not show", "anchors": ["tests/utest.h:EXPECT_TRUE", "tests/utest.h:EXPECT_STREQ", "tests/utest.h:EXPECT_NEAR", "tests/utest.h:UTEST_EXPECT", "tests/utest.h:UTEST_PRINTF"]}
{"id": "C106", "title": "Floating-point numbers are shown with six significant digits", "statement": "The messages of almostEqual and the printed float registers show every finite number correctly rounded to six significant digits, without exponent from 0.0001 to below a million and with one otherwise, without zeros at the end, infinities and NaNs by name, a minus sign exactly if the sign bit is set; an integer below a million is shown as an integer is; registers of different content are printed differently.", "quantifier": "all 2^32 floats and all 2^64 doubles, in every lane of every float register; all messages", "why_tests_cant": "a test prints a few numbers, mostly small integers", "anchors": ["tests/test_util.hpp:almostEqual", "tests/neon_helper.hpp:operator<<"]}
{"id": "C107", "title": "Registers can be written as initializer lists", "statement": "A list in braces initializes the lanes of a register in order, the remaining lanes are zero; a list that is too long, and a value that the lane type does not represent (or a variable whose type has such values), is rejected by the compiler. Extra braces around the list do not matter; an array of registers takes all lanes in a row, lists of lanes in two pairs of braces, or registers. A register initializes a register of its own type, and one of any type of the same length (the feature list of the README says so).", "quantifier": "every register type and every type of arrays of registers, every list of constants and variables of every arithmetic type and length", "why_tests_cant": "a test initializes a few registers with small constants; what the compiler rejects cannot be a test", "anchors": ["neon_sim.h:int8x8_t", "neon_sim.h:float32x4_t", "neon_sim.h:int8x8x2_t", "README.md"]}
{"id": "C108", "title": "Calls with the wrong vector types are rejected at compile time", "statement": "The compiler rejects every expression in which an intrinsic is given a register of another type than it takes, the wrong number of arguments, a pointer or array of elements of another type than its name says (the example of the README), or const memory to store to; it accepts the expressions whose calls have the declared types, and nothing else. Lane indexes, immediate and other scalar arguments and the extent of arrays are checked too.", "quantifier": "all expressions made of calls, to any depth, of all declared functions, with arguments of all register, pointer, array and arithmetic types", "why_tests_cant": "what the compiler rejects cannot be a test, and the expressions are unbounded", "anchors": ["README.md", "neon_sim.h:vld1_u16", "neon_sim.h:vadd_s8", "neon_sim.h:vst1_u8"]}
{"id": "C109", "title": "Checks do not interfere with the names of a test", "statement": "A check judges the values that its arguments have in the test, whatever the variables of the test are called; EXPECT_EXCEPTION leaves the variables as its statement does.", "quantifier": "all comparison checks, EXPECT_NEAR and EXPECT_EXCEPTION, all arguments made of names, values and operations, all variables of a test", "why_tests_cant": "a test has a few names; a check that compares a value with itself passes", "anchors": ["tests/utest.h:UTEST_EXPECT", "tests/utest.h:EXPECT_NEAR", "tests/utest.h:EXPECT_EXCEPTION"]}
{"id": "C110", "title": "The times in the report are the times that passed", "statement": "The time shown for a test is the number of nanoseconds that passed while it ran, never negative, and reading the clock is defined; a random order without a given seed takes a new seed in every run.", "quantifier": "every reading of the clock of the system, also across midnight, years and adjustments; every amount of processor time; both dialects of signed overflow; every two starts of the program", "why_tests_cant": "a test program runs for seconds, at one date", "anchors": ["tests/utest.h:utest_ns", "tests/utest.h:utest_main"]}
{"id": "C111", "title": "Transposing byte matrices", "statement": "The usual transposition of 8 x 8 bytes by vtrn_u8, vtrn_u16, vtrn_u32 and vreinterpret puts lane i of row k into lane k of row i; done block by block with vld1_u8 and vst1_u8 it transposes a matrix of any number of rows and columns (multiples of eight), writes nothing else, and twice gives the matrix back.", "quantifier": "every content of the registers; every number of rows and columns of blocks, every content of the matrix, every destination with room for it in another buffer", "why_tests_cant": "the input space is the full cross product of lane values; the repository's tests try one or two literal vectors per family", "anchors": ["neon_sim.cpp:vtrn_u8", "neon_sim.cpp:vtrn_u16", "neon_sim.cpp:vtrn_u32", "neon_sim.cpp:vreinterpret_u16_u8", "neon_sim.cpp:vreinterpret_u32_u16", "neon_sim.cpp:vreinterpret_u8_u32", "neon_sim.cpp:vld1_u8", "neon_sim.cpp:vst1_u8"]}
{"id": "C112", "title": "Reversing byte arrays", "statement": "A loop of vld1_u8, vrev64_u8 and vst1_u8 that stores the blocks from the end writes the bytes of the source in reverse order and nothing else, and twice gives the bytes back.", "quantifier": "every number of blocks, every content, every destination with room for it in another buffer", "why_tests_cant": "the input space is the full cross product of lane values; the repository's tests try one or two literal vectors per family", "anchors": ["neon_sim.cpp:vrev64_u8", "neon_sim.cpp:vld1_u8", "neon_sim.cpp:vst1_u8"]}
