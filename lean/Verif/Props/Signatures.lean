import Verif.Cpp.HeaderText
import Verif.Cpp.Library

/-! # The signatures of the header and of the definitions (C65)

Generated by `tools/gen_link.py`.  `neon_sim.h` is read from its text, as are the signatures of the definitions in
`neon_sim.cpp`. -/

namespace Verif.Props
open Verif.Cpp

/-- The declarations of the header, with repetitions. -/
noncomputable def declared : List Sig := header0_sigs ++ (header1_sigs ++ (header2_sigs ++ (header3_sigs ++ (header4_sigs ++ (header5_sigs ++ (header6_sigs ++ (header7_sigs ++ (header8_sigs ++ (header9_sigs ++ (header10_sigs ++ (header11_sigs ++ (header12_sigs ++ (header13_sigs ++ (header14_sigs ++ (header15_sigs ++ (header16_sigs ++ (header17_sigs ++ (header18_sigs ++ (header19_sigs ++ (header20_sigs ++ (header21_sigs ++ (header22_sigs ++ (header23_sigs ++ (header24_sigs ++ (header25_sigs ++ (header26_sigs ++ (header27_sigs ++ (header28_sigs ++ (header29_sigs ++ (header30_sigs ++ (header31_sigs ++ (header32_sigs ++ (header33_sigs ++ (header34_sigs ++ (header35_sigs ++ (header36_sigs ++ (header37_sigs ++ (header38_sigs ++ (header39_sigs ++ (header40_sigs ++ (header41_sigs ++ (header42_sigs ++ (header43_sigs ++ (header44_sigs ++ (header45_sigs ++ (header46_sigs ++ (header47_sigs ++ (header48_sigs ++ (header49_sigs ++ (header50_sigs ++ (header51_sigs ++ (header52_sigs ++ (header53_sigs ++ (header54_sigs ++ (header55_sigs ++ (header56_sigs ++ (header57_sigs ++ (header58_sigs ++ (header59_sigs ++ (header60_sigs ++ (header61_sigs ++ [])))))))))))))))))))))))))))))))))))))))))))))))))))))))))))))

/-- The types that the header defines. -/
noncomputable def headerTypes : List (Nat × Ty) := header62_state.types

/-- Reading the text of the header gives these types and declarations; every conditional is closed. -/
theorem header_read : readHeader .init header_pieces = some (⟨header62_state.macros, [], headerTypes⟩, declared) :=
  readHeader_cons header0_read
  (readHeader_cons header1_read
  (readHeader_cons header2_read
  (readHeader_cons header3_read
  (readHeader_cons header4_read
  (readHeader_cons header5_read
  (readHeader_cons header6_read
  (readHeader_cons header7_read
  (readHeader_cons header8_read
  (readHeader_cons header9_read
  (readHeader_cons header10_read
  (readHeader_cons header11_read
  (readHeader_cons header12_read
  (readHeader_cons header13_read
  (readHeader_cons header14_read
  (readHeader_cons header15_read
  (readHeader_cons header16_read
  (readHeader_cons header17_read
  (readHeader_cons header18_read
  (readHeader_cons header19_read
  (readHeader_cons header20_read
  (readHeader_cons header21_read
  (readHeader_cons header22_read
  (readHeader_cons header23_read
  (readHeader_cons header24_read
  (readHeader_cons header25_read
  (readHeader_cons header26_read
  (readHeader_cons header27_read
  (readHeader_cons header28_read
  (readHeader_cons header29_read
  (readHeader_cons header30_read
  (readHeader_cons header31_read
  (readHeader_cons header32_read
  (readHeader_cons header33_read
  (readHeader_cons header34_read
  (readHeader_cons header35_read
  (readHeader_cons header36_read
  (readHeader_cons header37_read
  (readHeader_cons header38_read
  (readHeader_cons header39_read
  (readHeader_cons header40_read
  (readHeader_cons header41_read
  (readHeader_cons header42_read
  (readHeader_cons header43_read
  (readHeader_cons header44_read
  (readHeader_cons header45_read
  (readHeader_cons header46_read
  (readHeader_cons header47_read
  (readHeader_cons header48_read
  (readHeader_cons header49_read
  (readHeader_cons header50_read
  (readHeader_cons header51_read
  (readHeader_cons header52_read
  (readHeader_cons header53_read
  (readHeader_cons header54_read
  (readHeader_cons header55_read
  (readHeader_cons header56_read
  (readHeader_cons header57_read
  (readHeader_cons header58_read
  (readHeader_cons header59_read
  (readHeader_cons header60_read
  (readHeader_cons header61_read rfl)))))))))))))))))))))))))))))))))))))))))))))))))))))))))))))

/-- The type names of the header mean what the semantics of the source texts takes them to mean: `typeOf` reads the element
type, the number of lanes and the number of registers off the name. -/
theorem header_types : ∀ p ∈ headerTypes, typeOf p.1 = some p.2 := by
  have h : (headerTypes.all fun p => decide (typeOf p.1 = some p.2)) = true := by decide +kernel
  exact fun p hp => of_decide_eq_true (List.all_eq_true.mp h p hp)

/-- Every register is 64 or 128 bits wide, and every register array has two to four registers. -/
theorem header_widths : ∀ p ∈ headerTypes, match p.2 with
    | .sc e => e = .f32 ∨ e = .f64
    | .vec e n => e.bits * n = 64 ∨ e.bits * n = 128
    | .arr e n k => (e.bits * n = 64 ∨ e.bits * n = 128) ∧ 2 ≤ k ∧ k ≤ 4
    | _ => False := by
  have h : (headerTypes.all fun p => match p.2 with
    | .sc e => decide (e = .f32 ∨ e = .f64)
    | .vec e n => decide (e.bits * n = 64 ∨ e.bits * n = 128)
    | .arr e n k => decide ((e.bits * n = 64 ∨ e.bits * n = 128) ∧ 2 ≤ k ∧ k ≤ 4)
    | _ => false) = true := by decide +kernel
  intro p hp
  have := List.all_eq_true.mp h p hp
  rcases p with ⟨x, t⟩
  cases t <;> simp_all

/-- The type names of the header. -/
noncomputable def headerType : Nat → Option Ty := header62_state.type

/-- What a text defines under a name: the signature of a function, with the types of the header. -/
noncomputable def _root_.Verif.Cpp.Text.sig (f : Nat) : Text → Option Sig
  | .fn s => definedSig headerType s.toList
  | .unit s => findSig headerType f (tokenize s.toList)

theorem cons_eq {a b : Option Sig} {l l' : List (Option Sig)} (h : a = b) (h' : l = l') : a :: l = b :: l' := by rw [h, h']

set_option maxRecDepth 100000

noncomputable section

cpp_sig headerType vadd_s8
cpp_sig headerType vadd_s16
cpp_sig headerType vadd_s32
cpp_sig headerType vadd_s64
cpp_sig headerType vadd_u8
cpp_sig headerType vadd_u16
cpp_sig headerType vadd_u32
cpp_sig headerType vadd_u64
cpp_sig headerType vaddq_s8
cpp_sig headerType vaddq_s16
cpp_sig headerType vaddq_s32
cpp_sig headerType vaddq_s64
cpp_sig headerType vaddq_u8
cpp_sig headerType vaddq_u16
cpp_sig headerType vaddq_u32
cpp_sig headerType vaddq_u64
cpp_sig headerType vsub_s8
cpp_sig headerType vsub_s16
cpp_sig headerType vsub_s32
cpp_sig headerType vsub_s64
cpp_sig headerType vsub_u8
cpp_sig headerType vsub_u16
cpp_sig headerType vsub_u32
cpp_sig headerType vsub_u64
cpp_sig headerType vsubq_s8
cpp_sig headerType vsubq_s16
cpp_sig headerType vsubq_s32
cpp_sig headerType vsubq_s64
cpp_sig headerType vsubq_u8
cpp_sig headerType vsubq_u16
cpp_sig headerType vsubq_u32
cpp_sig headerType vsubq_u64
cpp_sig headerType vaddq_f32
cpp_sig headerType vsub_f32
cpp_sig headerType vsub_f32_overload2
cpp_sig headerType vsubq_f32
cpp_sig headerType vmulq_f32
cpp_sig headerType vmul_n_f32
cpp_sig headerType vmul_n_f64
cpp_sig headerType vmulq_n_f32
cpp_sig headerType vmulq_n_f64
cpp_sig headerType vdiv_f32
cpp_sig headerType vdiv_f64
cpp_sig headerType vdivq_f32
cpp_sig headerType vdivq_f64
cpp_sig headerType vmlaq_f32
cpp_sig headerType vmlaq_n_f32
cpp_sig headerType vcvtq_f32_s32
cpp_sig headerType vcvtq_s32_f32
cpp_sig headerType vcvtq_u32_f32
cpp_sig headerType vcvtnq_s32_f32
cpp_sig headerType vcltq_f32
cpp_sig headerType vmaxq_f32
cpp_sig headerType vminq_f32
cpp_sig headerType vpmax_f32
cpp_sig headerType vpmin_f32
cpp_sig headerType vbslq_f32
cpp_sig headerType vld1_u8
cpp_sig headerType vld1_s8
cpp_sig headerType vld1_u16
cpp_sig headerType vld1_s16
cpp_sig headerType vld1_u32
cpp_sig headerType vld1_u64
cpp_sig headerType vld1_s32
cpp_sig headerType vld1_s64
cpp_sig headerType vld1_f32
cpp_sig headerType vld1_f64
cpp_sig headerType vld1q_u8
cpp_sig headerType vld1q_s8
cpp_sig headerType vld1q_u16
cpp_sig headerType vld1q_s16
cpp_sig headerType vld1q_u32
cpp_sig headerType vld1q_s32
cpp_sig headerType vld1q_s64
cpp_sig headerType vld1q_u64
cpp_sig headerType vld1q_f32
cpp_sig headerType vld2_u8
cpp_sig headerType vld2_s8
cpp_sig headerType vld2_u16
cpp_sig headerType vld2_s16
cpp_sig headerType vld2_u32
cpp_sig headerType vld_s32
cpp_sig headerType vld2_f32
cpp_sig headerType vld2q_u8
cpp_sig headerType vld2q_s8
cpp_sig headerType vld2q_u16
cpp_sig headerType vld2q_s16
cpp_sig headerType vld2q_u32
cpp_sig headerType vld2q_s32
cpp_sig headerType vld3_u8
cpp_sig headerType vld3_s8
cpp_sig headerType vld3_u16
cpp_sig headerType vld3_s16
cpp_sig headerType vld3_u32
cpp_sig headerType vld3_s32
cpp_sig headerType vld3_f32
cpp_sig headerType vld3q_u8
cpp_sig headerType vld3q_s8
cpp_sig headerType vld3q_u16
cpp_sig headerType vld3q_s16
cpp_sig headerType vld3q_u32
cpp_sig headerType vld3q_s32
cpp_sig headerType vld4_u8
cpp_sig headerType vld4_s8
cpp_sig headerType vld4_u16
cpp_sig headerType vld4_s16
cpp_sig headerType vld4_u32
cpp_sig headerType vld4_s32
cpp_sig headerType vld4_f32
cpp_sig headerType vld4q_u8
cpp_sig headerType vld4q_s8
cpp_sig headerType vld4q_u16
cpp_sig headerType vld4q_s16
cpp_sig headerType vld4q_u32
cpp_sig headerType vld4q_s32
cpp_sig headerType vld1q_dup_f32
cpp_sig headerType vld1_lane_s8
cpp_sig headerType vld1_lane_u8
cpp_sig headerType vld2_lane_u8
cpp_sig headerType vld3_lane_u8
cpp_sig headerType vld4_lane_u8
cpp_sig headerType vand_s8
cpp_sig headerType vand_s16
cpp_sig headerType vand_s32
cpp_sig headerType vand_s64
cpp_sig headerType vand_u8
cpp_sig headerType vand_u16
cpp_sig headerType vand_u32
cpp_sig headerType vand_u64
cpp_sig headerType vandq_s8
cpp_sig headerType vandq_s16
cpp_sig headerType vandq_s32
cpp_sig headerType vandq_s64
cpp_sig headerType vandq_u8
cpp_sig headerType vandq_u16
cpp_sig headerType vandq_u32
cpp_sig headerType vandq_u64
cpp_sig headerType vorr_s8
cpp_sig headerType vorr_s16
cpp_sig headerType vorr_s32
cpp_sig headerType vorr_s64
cpp_sig headerType vorr_u8
cpp_sig headerType vorr_u16
cpp_sig headerType vorr_u32
cpp_sig headerType vorr_u64
cpp_sig headerType vorrq_s8
cpp_sig headerType vorrq_s16
cpp_sig headerType vorrq_s32
cpp_sig headerType vorrq_s64
cpp_sig headerType vorrq_u8
cpp_sig headerType vorrq_u16
cpp_sig headerType vorrq_u32
cpp_sig headerType vorrq_u64
cpp_sig headerType veor_s8
cpp_sig headerType veor_s16
cpp_sig headerType veor_s32
cpp_sig headerType veor_s64
cpp_sig headerType veor_u8
cpp_sig headerType veor_u16
cpp_sig headerType ver_u32
cpp_sig headerType veor_u64
cpp_sig headerType veorq_s8
cpp_sig headerType veorq_s16
cpp_sig headerType veorq_s32
cpp_sig headerType veorq_s64
cpp_sig headerType veorq_u8
cpp_sig headerType veorq_u16
cpp_sig headerType veorq_u32
cpp_sig headerType veorq_u64
cpp_sig headerType vmvn_s8
cpp_sig headerType vmvn_s16
cpp_sig headerType vmvn_s32
cpp_sig headerType vmvn_u8
cpp_sig headerType vmvn_u16
cpp_sig headerType vmvn_u32
cpp_sig headerType vmvnq_s8
cpp_sig headerType vmvnq_s16
cpp_sig headerType vmvnq_s32
cpp_sig headerType vmvnq_u8
cpp_sig headerType vmvnq_u16
cpp_sig headerType vmvnq_u32
cpp_sig headerType vmaxq_s8
cpp_sig headerType vmaxq_s16
cpp_sig headerType vmaxq_s32
cpp_sig headerType vmaxq_u8
cpp_sig headerType vmaxq_u16
cpp_sig headerType vmaxq_u32
cpp_sig headerType vminq_s8
cpp_sig headerType vminq_s16
cpp_sig headerType vminq_s32
cpp_sig headerType vminq_u8
cpp_sig headerType vminq_u16
cpp_sig headerType vminq_u32
cpp_sig headerType vdup_n_s8
cpp_sig headerType vdup_n_s16
cpp_sig headerType vdup_n_s32
cpp_sig headerType vdup_n_s64
cpp_sig headerType vdup_n_u8
cpp_sig headerType vdup_n_u16
cpp_sig headerType vdup_n_u32
cpp_sig headerType vdup_n_u64
cpp_sig headerType vdupq_n_u8
cpp_sig headerType vdupq_n_s8
cpp_sig headerType vdupq_n_u16
cpp_sig headerType vdupq_n_s16
cpp_sig headerType vdupq_n_u32
cpp_sig headerType vdupq_n_s32
cpp_sig headerType vdupq_n_f32
cpp_sig headerType vmovq_n_f32
cpp_sig headerType vget_low_f32
cpp_sig headerType vget_low_s32
cpp_sig headerType vget_low_u32
cpp_sig headerType vget_low_s16
cpp_sig headerType vget_low_u16
cpp_sig headerType vget_low_s8
cpp_sig headerType vget_low_u8
cpp_sig headerType vget_high_f32
cpp_sig headerType vget_high_s32
cpp_sig headerType vget_high_u32
cpp_sig headerType vget_high_s16
cpp_sig headerType vget_high_u16
cpp_sig headerType vget_high_s8
cpp_sig headerType vget_high_u8
cpp_sig headerType vcombine_u8
cpp_sig headerType vcombine_u16
cpp_sig headerType vcombine_u32
cpp_sig headerType vcombine_s8
cpp_sig headerType vcombine_s16
cpp_sig headerType vcombine_s32
cpp_sig headerType vget_lane_f32
cpp_sig headerType vgetq_lane_u8
cpp_sig headerType vgetq_lane_u16
cpp_sig headerType vgetq_lane_u32
cpp_sig headerType vgetq_lane_u64
cpp_sig headerType vgetq_lane_s8
cpp_sig headerType vgetq_lane_s16
cpp_sig headerType vgetq_lane_s32
cpp_sig headerType vgetq_lane_s64
cpp_sig headerType vgetq_lane_f64
cpp_sig headerType vgetq_lane_f32
cpp_sig headerType vmovn_s32
cpp_sig headerType vmovn_u32
cpp_sig headerType vmovn_u16
cpp_sig headerType vmovl_u8
cpp_sig headerType vmovl_u16
cpp_sig headerType vmovl_u32
cpp_sig headerType vmovl_s8
cpp_sig headerType vmovl_s16
cpp_sig headerType vmovl_s32
cpp_sig headerType vqmovn_u16
cpp_sig headerType vqmovun_s16
cpp_sig headerType vmul_s8
cpp_sig headerType vmul_s16
cpp_sig headerType vmul_s32
cpp_sig headerType vmul_u8
cpp_sig headerType vmul_u16
cpp_sig headerType vmul_u32
cpp_sig headerType vmulq_s8
cpp_sig headerType vmulq_s16
cpp_sig headerType vmulq_s32
cpp_sig headerType vmulq_u8
cpp_sig headerType vmulq_u16
cpp_sig headerType vmulq_u32
cpp_sig headerType vmul_n_s16
cpp_sig headerType vmul_n_s32
cpp_sig headerType vmul_n_u16
cpp_sig headerType vmul_n_u32
cpp_sig headerType vmulq_n_s16
cpp_sig headerType vmulq_n_s32
cpp_sig headerType vmulq_n_u16
cpp_sig headerType vmulq_n_u32
cpp_sig headerType vmull_s8
cpp_sig headerType vmull_s16
cpp_sig headerType vmull_s32
cpp_sig headerType vmull_u8
cpp_sig headerType vmull_u16
cpp_sig headerType vmull_u32
cpp_sig headerType vmull_n_s16
cpp_sig headerType vmull_n_s32
cpp_sig headerType vmull_n_u16
cpp_sig headerType vmull_n_u32
cpp_sig headerType vqdmull_s16
cpp_sig headerType vmlal_s8
cpp_sig headerType vmlal_s16
cpp_sig headerType vmlal_s32
cpp_sig headerType vmlal_u8
cpp_sig headerType vmlal_u16
cpp_sig headerType vmlal_u32
cpp_sig headerType vmlsl_s8
cpp_sig headerType vmlsl_s16
cpp_sig headerType vmlsl_s32
cpp_sig headerType vmlsl_u8
cpp_sig headerType vmlsl_u16
cpp_sig headerType vmlsl_u32
cpp_sig headerType vmlaq_s8
cpp_sig headerType vmlaq_s16
cpp_sig headerType vmlaq_s32
cpp_sig headerType vmlaq_u8
cpp_sig headerType vmlaq_u16
cpp_sig headerType vmlaq_u32
cpp_sig headerType vpaddl_u8
cpp_sig headerType vpaddlq_u8
cpp_sig headerType vpaddlq_u16
cpp_sig headerType vaddhn_high_s16
cpp_sig headerType vaddhn_high_s32
cpp_sig headerType vaddhn_high_s64
cpp_sig headerType vaddhn_high_u16
cpp_sig headerType vaddhn_high_u32
cpp_sig headerType vaddhn_high_u64
cpp_sig headerType vsubhn_s16
cpp_sig headerType vsubn_s32
cpp_sig headerType vsubn_s64
cpp_sig headerType vsubhn_u16
cpp_sig headerType vsubn_u32
cpp_sig headerType vsubn_u64
cpp_sig headerType vrsubhn_s16
cpp_sig headerType vrsubhn_s32
cpp_sig headerType vrsubhn_s64
cpp_sig headerType vrsubhn_u16
cpp_sig headerType vrsubhn_u32
cpp_sig headerType vrsubhn_u64
cpp_sig headerType vhsub_s8
cpp_sig headerType vhsub_s16
cpp_sig headerType vhsub_s32
cpp_sig headerType vhsub_u8
cpp_sig headerType vhsub_u16
cpp_sig headerType vhsub_u32
cpp_sig headerType vhsubq_s8
cpp_sig headerType vhsubq_s16
cpp_sig headerType vhsubq_s32
cpp_sig headerType vhsubq_u8
cpp_sig headerType vhsubq_u16
cpp_sig headerType vhsubq_u32
cpp_sig headerType vrev16_s8
cpp_sig headerType vrev16_u8
cpp_sig headerType vrev16q_s8
cpp_sig headerType vrev16q_u8
cpp_sig headerType vrev32_s8
cpp_sig headerType vrev32_s16
cpp_sig headerType vrev32_u8
cpp_sig headerType vrev32_u16
cpp_sig headerType vrev32q_s8
cpp_sig headerType vrev32q_s16
cpp_sig headerType vrev32q_u8
cpp_sig headerType vrev32q_u16
cpp_sig headerType vrev64_s8
cpp_sig headerType vrev64_s16
cpp_sig headerType vrev64_s32
cpp_sig headerType vrev64_u8
cpp_sig headerType vrev64_u16
cpp_sig headerType vrev64_u32
cpp_sig headerType vrev64_f32
cpp_sig headerType vrev64q_s8
cpp_sig headerType vrev64q_s16
cpp_sig headerType vrev64q_s32
cpp_sig headerType vrev64q_u8
cpp_sig headerType vrev64q_u16
cpp_sig headerType vrev64q_u32
cpp_sig headerType vrev64q_f32
cpp_sig headerType vtrn_s8
cpp_sig headerType vtrn_u8
cpp_sig headerType vtrn_s16
cpp_sig headerType vtrn_u16
cpp_sig headerType vtrn_s32
cpp_sig headerType vtrn_u32
cpp_sig headerType vtrnq_u16
cpp_sig headerType vtrnq_u32
cpp_sig headerType vtrnq_s16
cpp_sig headerType vzip_s16
cpp_sig headerType vzip_s8
cpp_sig headerType vzip_u8
cpp_sig headerType vuzp_u8
cpp_sig headerType vuzp_s8
cpp_sig headerType vext_u8
cpp_sig headerType vext_u16
cpp_sig headerType vext_s16
cpp_sig headerType vextq_u16
cpp_sig headerType vqsub_s64
cpp_sig headerType vqsubq_s64
cpp_sig headerType vqsub_u64
cpp_sig headerType vqsubq_u64
cpp_unit_sig headerType recip vrecpeq_f32
cpp_sig headerType vrecpsq_f32
cpp_sig headerType vreinterpret_u8_s8
cpp_sig headerType vreinterpretq_s16_u16
cpp_sig headerType vreinterpretq_u16_s16
cpp_sig headerType vreinterpret_u16_u8
cpp_sig headerType vreinterpret_u32_u16
cpp_sig headerType vreinterpret_u8_u32
cpp_sig headerType vreinterpret_u32_u8
cpp_sig headerType vreinterpret_s8_u8
cpp_sig headerType vreinterpret_s32_s16
cpp_sig headerType vreinterpret_s16_s32
cpp_sig headerType vreinterpretq_u8_s8
cpp_sig headerType vreinterpretq_u8_s16
cpp_sig headerType vreinterpretq_u8_s32
cpp_sig headerType vreinterpretq_u8_f32
cpp_sig headerType vreinterpretq_u8_u16
cpp_sig headerType vreinterpretq_u8_u32
cpp_sig headerType vreinterpretq_u8_u64
cpp_sig headerType vreinterpretq_u8_s64
cpp_sig headerType vreinterpretq_u8_f64
cpp_sig headerType vreinterpretq_u32_s8
cpp_sig headerType vreinterpretq_u32_s16
cpp_sig headerType vreinterpretq_u32_s32
cpp_sig headerType vreinterpretq_u32_f32
cpp_sig headerType vreinterpretq_u32_u8
cpp_sig headerType vreinterpretq_u32_u16
cpp_sig headerType vreinterpretq_u32_u64
cpp_sig headerType vreinterpretq_u32_s64
cpp_sig headerType vreinterpretq_u32_f64
cpp_sig headerType vqadd_u8
cpp_sig headerType vqaddq_u8
cpp_sig headerType vqsub_s8
cpp_sig headerType vqsub_s16
cpp_sig headerType vqsub_s32
cpp_sig headerType vqsub_u8
cpp_sig headerType vqsub_u16
cpp_sig headerType vqsub_u32
cpp_sig headerType vqsubq_s8
cpp_sig headerType vqsubq_s16
cpp_sig headerType vqsubq_s32
cpp_sig headerType vqsubq_u8
cpp_sig headerType vqsubq_u16
cpp_sig headerType vqsubq_u32
cpp_sig headerType vcgtq_u8
cpp_sig headerType vbslq_u8
cpp_sig headerType vtbl1_u8
cpp_sig headerType vtbl2_u8
cpp_sig headerType vtbl4_u8
cpp_sig headerType vqtbl1_u8
cpp_sig headerType vshrn_n_s16
cpp_sig headerType vshrn_n_s32
cpp_sig headerType vshrn_n_s64
cpp_sig headerType vshrn_n_u16
cpp_sig headerType vshrn_n_u32
cpp_sig headerType vshrn_n_u64
cpp_sig headerType vshr_n_u16
cpp_sig headerType vqshrun_n_s16
cpp_sig headerType vqrshrun_n_s16
cpp_sig headerType vqshrn_n_s16
cpp_sig headerType vqshrn_n_s32
cpp_sig headerType vqshrn_n_u16
cpp_sig headerType vqshrn_n_u32
cpp_sig headerType vqshrn_n_u64
cpp_sig headerType vqshrn_n_s64
cpp_sig headerType vrshrn_n_u16
cpp_sig headerType vsraq_n_s32
cpp_sig headerType vshlq_n_s32
cpp_sig headerType vshll_n_u8
cpp_sig headerType vqshrun_n_s32
cpp_sig headerType vqshrun_n_s64
cpp_sig headerType vaddl_u8
cpp_sig headerType vaddw_s8
cpp_sig headerType vaddw_s16
cpp_sig headerType vaddw_s32
cpp_sig headerType vaddw_u8
cpp_sig headerType vaddw_u16
cpp_sig headerType vaddw_u32
cpp_sig headerType vaddw_high_s8
cpp_sig headerType vaddw_high_s16
cpp_sig headerType vaddw_high_s32
cpp_sig headerType vaddw_high_u8
cpp_sig headerType vaddw_high_u16
cpp_sig headerType vaddw_high_u32
cpp_sig headerType vaddl_high_s8
cpp_sig headerType vaddl_high_s16
cpp_sig headerType vaddl_high_s32
cpp_sig headerType vaddl_high_u8
cpp_sig headerType vaddl_high_u16
cpp_sig headerType vaddl_high_u32
cpp_unit_sig headerType recip FPRecipEstimate
cpp_sig headerType RecipEstimate
cpp_sig headerType vst1_u8
cpp_sig headerType vst1_s8
cpp_sig headerType vst1_u16
cpp_sig headerType vst1_s16
cpp_sig headerType vst1_u32
cpp_sig headerType vst1_s32
cpp_sig headerType vst1_s64
cpp_sig headerType vst1_u64
cpp_sig headerType vst1q_u8
cpp_sig headerType vst1q_s8
cpp_sig headerType vst1q_u16
cpp_sig headerType vst1q_s16
cpp_sig headerType vst1q_u32
cpp_sig headerType vst1q_s32
cpp_sig headerType vst1q_s64
cpp_sig headerType vst1q_u64
cpp_sig headerType vst1q_f32
cpp_sig headerType vst2_s8
cpp_sig headerType vst2_s16
cpp_sig headerType vst2_s32
cpp_sig headerType vst2_u8
cpp_sig headerType vst2_u16
cpp_sig headerType vst2_u32
cpp_sig headerType vst2q_s8
cpp_sig headerType vst2q_s16
cpp_sig headerType vst2q_s32
cpp_sig headerType vst2q_u8
cpp_sig headerType vst2q_u16
cpp_sig headerType vst2q_u32
cpp_sig headerType vst3_s8
cpp_sig headerType vst3_s16
cpp_sig headerType vst3_s32
cpp_sig headerType vst3_u8
cpp_sig headerType vst3_u16
cpp_sig headerType vst3_u32
cpp_sig headerType vst3q_s8
cpp_sig headerType vst3q_s16
cpp_sig headerType vst3q_s32
cpp_sig headerType vst3q_u8
cpp_sig headerType vst3q_u16
cpp_sig headerType vst3q_u32
cpp_sig headerType vst4_s8
cpp_sig headerType vst4_s16
cpp_sig headerType vst4_s32
cpp_sig headerType vst4_u8
cpp_sig headerType vst4_u16
cpp_sig headerType vst4_u32
cpp_sig headerType vst4q_s8
cpp_sig headerType vst4q_s16
cpp_sig headerType vst4q_s32
cpp_sig headerType vst4q_u8
cpp_sig headerType vst4q_u16
cpp_sig headerType vst4q_u32
cpp_sig headerType vst4q_lane_f32
cpp_sig headerType vsubl_s8
cpp_sig headerType vsubl_s16
cpp_sig headerType vsubl_s32
cpp_sig headerType vsubl_u8
cpp_sig headerType vsubl_u16
cpp_sig headerType vsubl_u32
cpp_sig headerType vsubw_s8
cpp_sig headerType vsubw_s16
cpp_sig headerType vsubw_s32
cpp_sig headerType vsubw_u8
cpp_sig headerType vsubw_u16
cpp_sig headerType vsubw_u32

noncomputable def defined0 : List Sig := [vadd_s8_sig, vadd_s16_sig, vadd_s32_sig, vadd_s64_sig, vadd_u8_sig, vadd_u16_sig, vadd_u32_sig, vadd_u64_sig, vaddq_s8_sig, vaddq_s16_sig, vaddq_s32_sig, vaddq_s64_sig, vaddq_u8_sig, vaddq_u16_sig, vaddq_u32_sig, vaddq_u64_sig, vsub_s8_sig, vsub_s16_sig, vsub_s32_sig, vsub_s64_sig, vsub_u8_sig, vsub_u16_sig, vsub_u32_sig, vsub_u64_sig, vsubq_s8_sig, vsubq_s16_sig, vsubq_s32_sig, vsubq_s64_sig, vsubq_u8_sig, vsubq_u16_sig, vsubq_u32_sig, vsubq_u64_sig, vaddq_f32_sig, vsub_f32_sig, vsub_f32_overload2_sig, vsubq_f32_sig, vmulq_f32_sig, vmul_n_f32_sig, vmul_n_f64_sig, vmulq_n_f32_sig, vmulq_n_f64_sig, vdiv_f32_sig, vdiv_f64_sig, vdivq_f32_sig, vdivq_f64_sig, vmlaq_f32_sig, vmlaq_n_f32_sig, vcvtq_f32_s32_sig, vcvtq_s32_f32_sig, vcvtq_u32_f32_sig, vcvtnq_s32_f32_sig, vcltq_f32_sig, vmaxq_f32_sig, vminq_f32_sig, vpmax_f32_sig, vpmin_f32_sig, vbslq_f32_sig, vld1_u8_sig, vld1_s8_sig, vld1_u16_sig]

theorem defined0_read : library0.map (fun e => e.2.sig e.1) = defined0.map some :=
  cons_eq vadd_s8_sig_read <| cons_eq vadd_s16_sig_read <| cons_eq vadd_s32_sig_read <| cons_eq vadd_s64_sig_read <| cons_eq vadd_u8_sig_read <| cons_eq vadd_u16_sig_read <| cons_eq vadd_u32_sig_read <| cons_eq vadd_u64_sig_read <| cons_eq vaddq_s8_sig_read <| cons_eq vaddq_s16_sig_read <| cons_eq vaddq_s32_sig_read <| cons_eq vaddq_s64_sig_read <| cons_eq vaddq_u8_sig_read <| cons_eq vaddq_u16_sig_read <| cons_eq vaddq_u32_sig_read <| cons_eq vaddq_u64_sig_read <| cons_eq vsub_s8_sig_read <| cons_eq vsub_s16_sig_read <| cons_eq vsub_s32_sig_read <| cons_eq vsub_s64_sig_read <| cons_eq vsub_u8_sig_read <| cons_eq vsub_u16_sig_read <| cons_eq vsub_u32_sig_read <| cons_eq vsub_u64_sig_read <| cons_eq vsubq_s8_sig_read <| cons_eq vsubq_s16_sig_read <| cons_eq vsubq_s32_sig_read <| cons_eq vsubq_s64_sig_read <| cons_eq vsubq_u8_sig_read <| cons_eq vsubq_u16_sig_read <| cons_eq vsubq_u32_sig_read <| cons_eq vsubq_u64_sig_read <| cons_eq vaddq_f32_sig_read <| cons_eq vsub_f32_sig_read <| cons_eq vsub_f32_overload2_sig_read <| cons_eq vsubq_f32_sig_read <| cons_eq vmulq_f32_sig_read <| cons_eq vmul_n_f32_sig_read <| cons_eq vmul_n_f64_sig_read <| cons_eq vmulq_n_f32_sig_read <| cons_eq vmulq_n_f64_sig_read <| cons_eq vdiv_f32_sig_read <| cons_eq vdiv_f64_sig_read <| cons_eq vdivq_f32_sig_read <| cons_eq vdivq_f64_sig_read <| cons_eq vmlaq_f32_sig_read <| cons_eq vmlaq_n_f32_sig_read <| cons_eq vcvtq_f32_s32_sig_read <| cons_eq vcvtq_s32_f32_sig_read <| cons_eq vcvtq_u32_f32_sig_read <| cons_eq vcvtnq_s32_f32_sig_read <| cons_eq vcltq_f32_sig_read <| cons_eq vmaxq_f32_sig_read <| cons_eq vminq_f32_sig_read <| cons_eq vpmax_f32_sig_read <| cons_eq vpmin_f32_sig_read <| cons_eq vbslq_f32_sig_read <| cons_eq vld1_u8_sig_read <| cons_eq vld1_s8_sig_read <| cons_eq vld1_u16_sig_read <| rfl

noncomputable def defined1 : List Sig := [vld1_s16_sig, vld1_u32_sig, vld1_u64_sig, vld1_s32_sig, vld1_s64_sig, vld1_f32_sig, vld1_f64_sig, vld1q_u8_sig, vld1q_s8_sig, vld1q_u16_sig, vld1q_s16_sig, vld1q_u32_sig, vld1q_s32_sig, vld1q_s64_sig, vld1q_u64_sig, vld1q_f32_sig, vld2_u8_sig, vld2_s8_sig, vld2_u16_sig, vld2_s16_sig, vld2_u32_sig, vld_s32_sig, vld2_f32_sig, vld2q_u8_sig, vld2q_s8_sig, vld2q_u16_sig, vld2q_s16_sig, vld2q_u32_sig, vld2q_s32_sig, vld3_u8_sig, vld3_s8_sig, vld3_u16_sig, vld3_s16_sig, vld3_u32_sig, vld3_s32_sig, vld3_f32_sig, vld3q_u8_sig, vld3q_s8_sig, vld3q_u16_sig, vld3q_s16_sig, vld3q_u32_sig, vld3q_s32_sig, vld4_u8_sig, vld4_s8_sig, vld4_u16_sig, vld4_s16_sig, vld4_u32_sig, vld4_s32_sig, vld4_f32_sig, vld4q_u8_sig, vld4q_s8_sig, vld4q_u16_sig, vld4q_s16_sig, vld4q_u32_sig, vld4q_s32_sig, vld1q_dup_f32_sig, vld1_lane_s8_sig, vld1_lane_u8_sig, vld2_lane_u8_sig, vld3_lane_u8_sig]

theorem defined1_read : library1.map (fun e => e.2.sig e.1) = defined1.map some :=
  cons_eq vld1_s16_sig_read <| cons_eq vld1_u32_sig_read <| cons_eq vld1_u64_sig_read <| cons_eq vld1_s32_sig_read <| cons_eq vld1_s64_sig_read <| cons_eq vld1_f32_sig_read <| cons_eq vld1_f64_sig_read <| cons_eq vld1q_u8_sig_read <| cons_eq vld1q_s8_sig_read <| cons_eq vld1q_u16_sig_read <| cons_eq vld1q_s16_sig_read <| cons_eq vld1q_u32_sig_read <| cons_eq vld1q_s32_sig_read <| cons_eq vld1q_s64_sig_read <| cons_eq vld1q_u64_sig_read <| cons_eq vld1q_f32_sig_read <| cons_eq vld2_u8_sig_read <| cons_eq vld2_s8_sig_read <| cons_eq vld2_u16_sig_read <| cons_eq vld2_s16_sig_read <| cons_eq vld2_u32_sig_read <| cons_eq vld_s32_sig_read <| cons_eq vld2_f32_sig_read <| cons_eq vld2q_u8_sig_read <| cons_eq vld2q_s8_sig_read <| cons_eq vld2q_u16_sig_read <| cons_eq vld2q_s16_sig_read <| cons_eq vld2q_u32_sig_read <| cons_eq vld2q_s32_sig_read <| cons_eq vld3_u8_sig_read <| cons_eq vld3_s8_sig_read <| cons_eq vld3_u16_sig_read <| cons_eq vld3_s16_sig_read <| cons_eq vld3_u32_sig_read <| cons_eq vld3_s32_sig_read <| cons_eq vld3_f32_sig_read <| cons_eq vld3q_u8_sig_read <| cons_eq vld3q_s8_sig_read <| cons_eq vld3q_u16_sig_read <| cons_eq vld3q_s16_sig_read <| cons_eq vld3q_u32_sig_read <| cons_eq vld3q_s32_sig_read <| cons_eq vld4_u8_sig_read <| cons_eq vld4_s8_sig_read <| cons_eq vld4_u16_sig_read <| cons_eq vld4_s16_sig_read <| cons_eq vld4_u32_sig_read <| cons_eq vld4_s32_sig_read <| cons_eq vld4_f32_sig_read <| cons_eq vld4q_u8_sig_read <| cons_eq vld4q_s8_sig_read <| cons_eq vld4q_u16_sig_read <| cons_eq vld4q_s16_sig_read <| cons_eq vld4q_u32_sig_read <| cons_eq vld4q_s32_sig_read <| cons_eq vld1q_dup_f32_sig_read <| cons_eq vld1_lane_s8_sig_read <| cons_eq vld1_lane_u8_sig_read <| cons_eq vld2_lane_u8_sig_read <| cons_eq vld3_lane_u8_sig_read <| rfl

noncomputable def defined2 : List Sig := [vld4_lane_u8_sig, vand_s8_sig, vand_s16_sig, vand_s32_sig, vand_s64_sig, vand_u8_sig, vand_u16_sig, vand_u32_sig, vand_u64_sig, vandq_s8_sig, vandq_s16_sig, vandq_s32_sig, vandq_s64_sig, vandq_u8_sig, vandq_u16_sig, vandq_u32_sig, vandq_u64_sig, vorr_s8_sig, vorr_s16_sig, vorr_s32_sig, vorr_s64_sig, vorr_u8_sig, vorr_u16_sig, vorr_u32_sig, vorr_u64_sig, vorrq_s8_sig, vorrq_s16_sig, vorrq_s32_sig, vorrq_s64_sig, vorrq_u8_sig, vorrq_u16_sig, vorrq_u32_sig, vorrq_u64_sig, veor_s8_sig, veor_s16_sig, veor_s32_sig, veor_s64_sig, veor_u8_sig, veor_u16_sig, ver_u32_sig, veor_u64_sig, veorq_s8_sig, veorq_s16_sig, veorq_s32_sig, veorq_s64_sig, veorq_u8_sig, veorq_u16_sig, veorq_u32_sig, veorq_u64_sig, vmvn_s8_sig, vmvn_s16_sig, vmvn_s32_sig, vmvn_u8_sig, vmvn_u16_sig, vmvn_u32_sig, vmvnq_s8_sig, vmvnq_s16_sig, vmvnq_s32_sig, vmvnq_u8_sig, vmvnq_u16_sig]

theorem defined2_read : library2.map (fun e => e.2.sig e.1) = defined2.map some :=
  cons_eq vld4_lane_u8_sig_read <| cons_eq vand_s8_sig_read <| cons_eq vand_s16_sig_read <| cons_eq vand_s32_sig_read <| cons_eq vand_s64_sig_read <| cons_eq vand_u8_sig_read <| cons_eq vand_u16_sig_read <| cons_eq vand_u32_sig_read <| cons_eq vand_u64_sig_read <| cons_eq vandq_s8_sig_read <| cons_eq vandq_s16_sig_read <| cons_eq vandq_s32_sig_read <| cons_eq vandq_s64_sig_read <| cons_eq vandq_u8_sig_read <| cons_eq vandq_u16_sig_read <| cons_eq vandq_u32_sig_read <| cons_eq vandq_u64_sig_read <| cons_eq vorr_s8_sig_read <| cons_eq vorr_s16_sig_read <| cons_eq vorr_s32_sig_read <| cons_eq vorr_s64_sig_read <| cons_eq vorr_u8_sig_read <| cons_eq vorr_u16_sig_read <| cons_eq vorr_u32_sig_read <| cons_eq vorr_u64_sig_read <| cons_eq vorrq_s8_sig_read <| cons_eq vorrq_s16_sig_read <| cons_eq vorrq_s32_sig_read <| cons_eq vorrq_s64_sig_read <| cons_eq vorrq_u8_sig_read <| cons_eq vorrq_u16_sig_read <| cons_eq vorrq_u32_sig_read <| cons_eq vorrq_u64_sig_read <| cons_eq veor_s8_sig_read <| cons_eq veor_s16_sig_read <| cons_eq veor_s32_sig_read <| cons_eq veor_s64_sig_read <| cons_eq veor_u8_sig_read <| cons_eq veor_u16_sig_read <| cons_eq ver_u32_sig_read <| cons_eq veor_u64_sig_read <| cons_eq veorq_s8_sig_read <| cons_eq veorq_s16_sig_read <| cons_eq veorq_s32_sig_read <| cons_eq veorq_s64_sig_read <| cons_eq veorq_u8_sig_read <| cons_eq veorq_u16_sig_read <| cons_eq veorq_u32_sig_read <| cons_eq veorq_u64_sig_read <| cons_eq vmvn_s8_sig_read <| cons_eq vmvn_s16_sig_read <| cons_eq vmvn_s32_sig_read <| cons_eq vmvn_u8_sig_read <| cons_eq vmvn_u16_sig_read <| cons_eq vmvn_u32_sig_read <| cons_eq vmvnq_s8_sig_read <| cons_eq vmvnq_s16_sig_read <| cons_eq vmvnq_s32_sig_read <| cons_eq vmvnq_u8_sig_read <| cons_eq vmvnq_u16_sig_read <| rfl

noncomputable def defined3 : List Sig := [vmvnq_u32_sig, vmaxq_s8_sig, vmaxq_s16_sig, vmaxq_s32_sig, vmaxq_u8_sig, vmaxq_u16_sig, vmaxq_u32_sig, vminq_s8_sig, vminq_s16_sig, vminq_s32_sig, vminq_u8_sig, vminq_u16_sig, vminq_u32_sig, vdup_n_s8_sig, vdup_n_s16_sig, vdup_n_s32_sig, vdup_n_s64_sig, vdup_n_u8_sig, vdup_n_u16_sig, vdup_n_u32_sig, vdup_n_u64_sig, vdupq_n_u8_sig, vdupq_n_s8_sig, vdupq_n_u16_sig, vdupq_n_s16_sig, vdupq_n_u32_sig, vdupq_n_s32_sig, vdupq_n_f32_sig, vmovq_n_f32_sig, vget_low_f32_sig, vget_low_s32_sig, vget_low_u32_sig, vget_low_s16_sig, vget_low_u16_sig, vget_low_s8_sig, vget_low_u8_sig, vget_high_f32_sig, vget_high_s32_sig, vget_high_u32_sig, vget_high_s16_sig, vget_high_u16_sig, vget_high_s8_sig, vget_high_u8_sig, vcombine_u8_sig, vcombine_u16_sig, vcombine_u32_sig, vcombine_s8_sig, vcombine_s16_sig, vcombine_s32_sig, vget_lane_f32_sig, vgetq_lane_u8_sig, vgetq_lane_u16_sig, vgetq_lane_u32_sig, vgetq_lane_u64_sig, vgetq_lane_s8_sig, vgetq_lane_s16_sig, vgetq_lane_s32_sig, vgetq_lane_s64_sig, vgetq_lane_f64_sig, vgetq_lane_f32_sig]

theorem defined3_read : library3.map (fun e => e.2.sig e.1) = defined3.map some :=
  cons_eq vmvnq_u32_sig_read <| cons_eq vmaxq_s8_sig_read <| cons_eq vmaxq_s16_sig_read <| cons_eq vmaxq_s32_sig_read <| cons_eq vmaxq_u8_sig_read <| cons_eq vmaxq_u16_sig_read <| cons_eq vmaxq_u32_sig_read <| cons_eq vminq_s8_sig_read <| cons_eq vminq_s16_sig_read <| cons_eq vminq_s32_sig_read <| cons_eq vminq_u8_sig_read <| cons_eq vminq_u16_sig_read <| cons_eq vminq_u32_sig_read <| cons_eq vdup_n_s8_sig_read <| cons_eq vdup_n_s16_sig_read <| cons_eq vdup_n_s32_sig_read <| cons_eq vdup_n_s64_sig_read <| cons_eq vdup_n_u8_sig_read <| cons_eq vdup_n_u16_sig_read <| cons_eq vdup_n_u32_sig_read <| cons_eq vdup_n_u64_sig_read <| cons_eq vdupq_n_u8_sig_read <| cons_eq vdupq_n_s8_sig_read <| cons_eq vdupq_n_u16_sig_read <| cons_eq vdupq_n_s16_sig_read <| cons_eq vdupq_n_u32_sig_read <| cons_eq vdupq_n_s32_sig_read <| cons_eq vdupq_n_f32_sig_read <| cons_eq vmovq_n_f32_sig_read <| cons_eq vget_low_f32_sig_read <| cons_eq vget_low_s32_sig_read <| cons_eq vget_low_u32_sig_read <| cons_eq vget_low_s16_sig_read <| cons_eq vget_low_u16_sig_read <| cons_eq vget_low_s8_sig_read <| cons_eq vget_low_u8_sig_read <| cons_eq vget_high_f32_sig_read <| cons_eq vget_high_s32_sig_read <| cons_eq vget_high_u32_sig_read <| cons_eq vget_high_s16_sig_read <| cons_eq vget_high_u16_sig_read <| cons_eq vget_high_s8_sig_read <| cons_eq vget_high_u8_sig_read <| cons_eq vcombine_u8_sig_read <| cons_eq vcombine_u16_sig_read <| cons_eq vcombine_u32_sig_read <| cons_eq vcombine_s8_sig_read <| cons_eq vcombine_s16_sig_read <| cons_eq vcombine_s32_sig_read <| cons_eq vget_lane_f32_sig_read <| cons_eq vgetq_lane_u8_sig_read <| cons_eq vgetq_lane_u16_sig_read <| cons_eq vgetq_lane_u32_sig_read <| cons_eq vgetq_lane_u64_sig_read <| cons_eq vgetq_lane_s8_sig_read <| cons_eq vgetq_lane_s16_sig_read <| cons_eq vgetq_lane_s32_sig_read <| cons_eq vgetq_lane_s64_sig_read <| cons_eq vgetq_lane_f64_sig_read <| cons_eq vgetq_lane_f32_sig_read <| rfl

noncomputable def defined4 : List Sig := [vmovn_s32_sig, vmovn_u32_sig, vmovn_u16_sig, vmovl_u8_sig, vmovl_u16_sig, vmovl_u32_sig, vmovl_s8_sig, vmovl_s16_sig, vmovl_s32_sig, vqmovn_u16_sig, vqmovun_s16_sig, vmul_s8_sig, vmul_s16_sig, vmul_s32_sig, vmul_u8_sig, vmul_u16_sig, vmul_u32_sig, vmulq_s8_sig, vmulq_s16_sig, vmulq_s32_sig, vmulq_u8_sig, vmulq_u16_sig, vmulq_u32_sig, vmul_n_s16_sig, vmul_n_s32_sig, vmul_n_u16_sig, vmul_n_u32_sig, vmulq_n_s16_sig, vmulq_n_s32_sig, vmulq_n_u16_sig, vmulq_n_u32_sig, vmull_s8_sig, vmull_s16_sig, vmull_s32_sig, vmull_u8_sig, vmull_u16_sig, vmull_u32_sig, vmull_n_s16_sig, vmull_n_s32_sig, vmull_n_u16_sig, vmull_n_u32_sig, vqdmull_s16_sig, vmlal_s8_sig, vmlal_s16_sig, vmlal_s32_sig, vmlal_u8_sig, vmlal_u16_sig, vmlal_u32_sig, vmlsl_s8_sig, vmlsl_s16_sig, vmlsl_s32_sig, vmlsl_u8_sig, vmlsl_u16_sig, vmlsl_u32_sig, vmlaq_s8_sig, vmlaq_s16_sig, vmlaq_s32_sig, vmlaq_u8_sig, vmlaq_u16_sig, vmlaq_u32_sig]

theorem defined4_read : library4.map (fun e => e.2.sig e.1) = defined4.map some :=
  cons_eq vmovn_s32_sig_read <| cons_eq vmovn_u32_sig_read <| cons_eq vmovn_u16_sig_read <| cons_eq vmovl_u8_sig_read <| cons_eq vmovl_u16_sig_read <| cons_eq vmovl_u32_sig_read <| cons_eq vmovl_s8_sig_read <| cons_eq vmovl_s16_sig_read <| cons_eq vmovl_s32_sig_read <| cons_eq vqmovn_u16_sig_read <| cons_eq vqmovun_s16_sig_read <| cons_eq vmul_s8_sig_read <| cons_eq vmul_s16_sig_read <| cons_eq vmul_s32_sig_read <| cons_eq vmul_u8_sig_read <| cons_eq vmul_u16_sig_read <| cons_eq vmul_u32_sig_read <| cons_eq vmulq_s8_sig_read <| cons_eq vmulq_s16_sig_read <| cons_eq vmulq_s32_sig_read <| cons_eq vmulq_u8_sig_read <| cons_eq vmulq_u16_sig_read <| cons_eq vmulq_u32_sig_read <| cons_eq vmul_n_s16_sig_read <| cons_eq vmul_n_s32_sig_read <| cons_eq vmul_n_u16_sig_read <| cons_eq vmul_n_u32_sig_read <| cons_eq vmulq_n_s16_sig_read <| cons_eq vmulq_n_s32_sig_read <| cons_eq vmulq_n_u16_sig_read <| cons_eq vmulq_n_u32_sig_read <| cons_eq vmull_s8_sig_read <| cons_eq vmull_s16_sig_read <| cons_eq vmull_s32_sig_read <| cons_eq vmull_u8_sig_read <| cons_eq vmull_u16_sig_read <| cons_eq vmull_u32_sig_read <| cons_eq vmull_n_s16_sig_read <| cons_eq vmull_n_s32_sig_read <| cons_eq vmull_n_u16_sig_read <| cons_eq vmull_n_u32_sig_read <| cons_eq vqdmull_s16_sig_read <| cons_eq vmlal_s8_sig_read <| cons_eq vmlal_s16_sig_read <| cons_eq vmlal_s32_sig_read <| cons_eq vmlal_u8_sig_read <| cons_eq vmlal_u16_sig_read <| cons_eq vmlal_u32_sig_read <| cons_eq vmlsl_s8_sig_read <| cons_eq vmlsl_s16_sig_read <| cons_eq vmlsl_s32_sig_read <| cons_eq vmlsl_u8_sig_read <| cons_eq vmlsl_u16_sig_read <| cons_eq vmlsl_u32_sig_read <| cons_eq vmlaq_s8_sig_read <| cons_eq vmlaq_s16_sig_read <| cons_eq vmlaq_s32_sig_read <| cons_eq vmlaq_u8_sig_read <| cons_eq vmlaq_u16_sig_read <| cons_eq vmlaq_u32_sig_read <| rfl

noncomputable def defined5 : List Sig := [vpaddl_u8_sig, vpaddlq_u8_sig, vpaddlq_u16_sig, vaddhn_high_s16_sig, vaddhn_high_s32_sig, vaddhn_high_s64_sig, vaddhn_high_u16_sig, vaddhn_high_u32_sig, vaddhn_high_u64_sig, vsubhn_s16_sig, vsubn_s32_sig, vsubn_s64_sig, vsubhn_u16_sig, vsubn_u32_sig, vsubn_u64_sig, vrsubhn_s16_sig, vrsubhn_s32_sig, vrsubhn_s64_sig, vrsubhn_u16_sig, vrsubhn_u32_sig, vrsubhn_u64_sig, vhsub_s8_sig, vhsub_s16_sig, vhsub_s32_sig, vhsub_u8_sig, vhsub_u16_sig, vhsub_u32_sig, vhsubq_s8_sig, vhsubq_s16_sig, vhsubq_s32_sig, vhsubq_u8_sig, vhsubq_u16_sig, vhsubq_u32_sig, vrev16_s8_sig, vrev16_u8_sig, vrev16q_s8_sig, vrev16q_u8_sig, vrev32_s8_sig, vrev32_s16_sig, vrev32_u8_sig, vrev32_u16_sig, vrev32q_s8_sig, vrev32q_s16_sig, vrev32q_u8_sig, vrev32q_u16_sig, vrev64_s8_sig, vrev64_s16_sig, vrev64_s32_sig, vrev64_u8_sig, vrev64_u16_sig, vrev64_u32_sig, vrev64_f32_sig, vrev64q_s8_sig, vrev64q_s16_sig, vrev64q_s32_sig, vrev64q_u8_sig, vrev64q_u16_sig, vrev64q_u32_sig, vrev64q_f32_sig, vtrn_s8_sig]

theorem defined5_read : library5.map (fun e => e.2.sig e.1) = defined5.map some :=
  cons_eq vpaddl_u8_sig_read <| cons_eq vpaddlq_u8_sig_read <| cons_eq vpaddlq_u16_sig_read <| cons_eq vaddhn_high_s16_sig_read <| cons_eq vaddhn_high_s32_sig_read <| cons_eq vaddhn_high_s64_sig_read <| cons_eq vaddhn_high_u16_sig_read <| cons_eq vaddhn_high_u32_sig_read <| cons_eq vaddhn_high_u64_sig_read <| cons_eq vsubhn_s16_sig_read <| cons_eq vsubn_s32_sig_read <| cons_eq vsubn_s64_sig_read <| cons_eq vsubhn_u16_sig_read <| cons_eq vsubn_u32_sig_read <| cons_eq vsubn_u64_sig_read <| cons_eq vrsubhn_s16_sig_read <| cons_eq vrsubhn_s32_sig_read <| cons_eq vrsubhn_s64_sig_read <| cons_eq vrsubhn_u16_sig_read <| cons_eq vrsubhn_u32_sig_read <| cons_eq vrsubhn_u64_sig_read <| cons_eq vhsub_s8_sig_read <| cons_eq vhsub_s16_sig_read <| cons_eq vhsub_s32_sig_read <| cons_eq vhsub_u8_sig_read <| cons_eq vhsub_u16_sig_read <| cons_eq vhsub_u32_sig_read <| cons_eq vhsubq_s8_sig_read <| cons_eq vhsubq_s16_sig_read <| cons_eq vhsubq_s32_sig_read <| cons_eq vhsubq_u8_sig_read <| cons_eq vhsubq_u16_sig_read <| cons_eq vhsubq_u32_sig_read <| cons_eq vrev16_s8_sig_read <| cons_eq vrev16_u8_sig_read <| cons_eq vrev16q_s8_sig_read <| cons_eq vrev16q_u8_sig_read <| cons_eq vrev32_s8_sig_read <| cons_eq vrev32_s16_sig_read <| cons_eq vrev32_u8_sig_read <| cons_eq vrev32_u16_sig_read <| cons_eq vrev32q_s8_sig_read <| cons_eq vrev32q_s16_sig_read <| cons_eq vrev32q_u8_sig_read <| cons_eq vrev32q_u16_sig_read <| cons_eq vrev64_s8_sig_read <| cons_eq vrev64_s16_sig_read <| cons_eq vrev64_s32_sig_read <| cons_eq vrev64_u8_sig_read <| cons_eq vrev64_u16_sig_read <| cons_eq vrev64_u32_sig_read <| cons_eq vrev64_f32_sig_read <| cons_eq vrev64q_s8_sig_read <| cons_eq vrev64q_s16_sig_read <| cons_eq vrev64q_s32_sig_read <| cons_eq vrev64q_u8_sig_read <| cons_eq vrev64q_u16_sig_read <| cons_eq vrev64q_u32_sig_read <| cons_eq vrev64q_f32_sig_read <| cons_eq vtrn_s8_sig_read <| rfl

noncomputable def defined6 : List Sig := [vtrn_u8_sig, vtrn_s16_sig, vtrn_u16_sig, vtrn_s32_sig, vtrn_u32_sig, vtrnq_u16_sig, vtrnq_u32_sig, vtrnq_s16_sig, vzip_s16_sig, vzip_s8_sig, vzip_u8_sig, vuzp_u8_sig, vuzp_s8_sig, vext_u8_sig, vext_u16_sig, vext_s16_sig, vextq_u16_sig, vqsub_s64_sig, vqsubq_s64_sig, vqsub_u64_sig, vqsubq_u64_sig, vrecpeq_f32_sig, vrecpsq_f32_sig, vreinterpret_u8_s8_sig, vreinterpretq_s16_u16_sig, vreinterpretq_u16_s16_sig, vreinterpret_u16_u8_sig, vreinterpret_u32_u16_sig, vreinterpret_u8_u32_sig, vreinterpret_u32_u8_sig, vreinterpret_s8_u8_sig, vreinterpret_s32_s16_sig, vreinterpret_s16_s32_sig, vreinterpretq_u8_s8_sig, vreinterpretq_u8_s16_sig, vreinterpretq_u8_s32_sig, vreinterpretq_u8_f32_sig, vreinterpretq_u8_u16_sig, vreinterpretq_u8_u32_sig, vreinterpretq_u8_u64_sig, vreinterpretq_u8_s64_sig, vreinterpretq_u8_f64_sig, vreinterpretq_u32_s8_sig, vreinterpretq_u32_s16_sig, vreinterpretq_u32_s32_sig, vreinterpretq_u32_f32_sig, vreinterpretq_u32_u8_sig, vreinterpretq_u32_u16_sig, vreinterpretq_u32_u64_sig, vreinterpretq_u32_s64_sig, vreinterpretq_u32_f64_sig, vqadd_u8_sig, vqaddq_u8_sig, vqsub_s8_sig, vqsub_s16_sig, vqsub_s32_sig, vqsub_u8_sig, vqsub_u16_sig, vqsub_u32_sig, vqsubq_s8_sig]

theorem defined6_read : library6.map (fun e => e.2.sig e.1) = defined6.map some :=
  cons_eq vtrn_u8_sig_read <| cons_eq vtrn_s16_sig_read <| cons_eq vtrn_u16_sig_read <| cons_eq vtrn_s32_sig_read <| cons_eq vtrn_u32_sig_read <| cons_eq vtrnq_u16_sig_read <| cons_eq vtrnq_u32_sig_read <| cons_eq vtrnq_s16_sig_read <| cons_eq vzip_s16_sig_read <| cons_eq vzip_s8_sig_read <| cons_eq vzip_u8_sig_read <| cons_eq vuzp_u8_sig_read <| cons_eq vuzp_s8_sig_read <| cons_eq vext_u8_sig_read <| cons_eq vext_u16_sig_read <| cons_eq vext_s16_sig_read <| cons_eq vextq_u16_sig_read <| cons_eq vqsub_s64_sig_read <| cons_eq vqsubq_s64_sig_read <| cons_eq vqsub_u64_sig_read <| cons_eq vqsubq_u64_sig_read <| cons_eq vrecpeq_f32_sig_read <| cons_eq vrecpsq_f32_sig_read <| cons_eq vreinterpret_u8_s8_sig_read <| cons_eq vreinterpretq_s16_u16_sig_read <| cons_eq vreinterpretq_u16_s16_sig_read <| cons_eq vreinterpret_u16_u8_sig_read <| cons_eq vreinterpret_u32_u16_sig_read <| cons_eq vreinterpret_u8_u32_sig_read <| cons_eq vreinterpret_u32_u8_sig_read <| cons_eq vreinterpret_s8_u8_sig_read <| cons_eq vreinterpret_s32_s16_sig_read <| cons_eq vreinterpret_s16_s32_sig_read <| cons_eq vreinterpretq_u8_s8_sig_read <| cons_eq vreinterpretq_u8_s16_sig_read <| cons_eq vreinterpretq_u8_s32_sig_read <| cons_eq vreinterpretq_u8_f32_sig_read <| cons_eq vreinterpretq_u8_u16_sig_read <| cons_eq vreinterpretq_u8_u32_sig_read <| cons_eq vreinterpretq_u8_u64_sig_read <| cons_eq vreinterpretq_u8_s64_sig_read <| cons_eq vreinterpretq_u8_f64_sig_read <| cons_eq vreinterpretq_u32_s8_sig_read <| cons_eq vreinterpretq_u32_s16_sig_read <| cons_eq vreinterpretq_u32_s32_sig_read <| cons_eq vreinterpretq_u32_f32_sig_read <| cons_eq vreinterpretq_u32_u8_sig_read <| cons_eq vreinterpretq_u32_u16_sig_read <| cons_eq vreinterpretq_u32_u64_sig_read <| cons_eq vreinterpretq_u32_s64_sig_read <| cons_eq vreinterpretq_u32_f64_sig_read <| cons_eq vqadd_u8_sig_read <| cons_eq vqaddq_u8_sig_read <| cons_eq vqsub_s8_sig_read <| cons_eq vqsub_s16_sig_read <| cons_eq vqsub_s32_sig_read <| cons_eq vqsub_u8_sig_read <| cons_eq vqsub_u16_sig_read <| cons_eq vqsub_u32_sig_read <| cons_eq vqsubq_s8_sig_read <| rfl

noncomputable def defined7 : List Sig := [vqsubq_s16_sig, vqsubq_s32_sig, vqsubq_u8_sig, vqsubq_u16_sig, vqsubq_u32_sig, vcgtq_u8_sig, vbslq_u8_sig, vtbl1_u8_sig, vtbl2_u8_sig, vtbl4_u8_sig, vqtbl1_u8_sig, vshrn_n_s16_sig, vshrn_n_s32_sig, vshrn_n_s64_sig, vshrn_n_u16_sig, vshrn_n_u32_sig, vshrn_n_u64_sig, vshr_n_u16_sig, vqshrun_n_s16_sig, vqrshrun_n_s16_sig, vqshrn_n_s16_sig, vqshrn_n_s32_sig, vqshrn_n_u16_sig, vqshrn_n_u32_sig, vqshrn_n_u64_sig, vqshrn_n_s64_sig, vrshrn_n_u16_sig, vsraq_n_s32_sig, vshlq_n_s32_sig, vshll_n_u8_sig, vqshrun_n_s32_sig, vqshrun_n_s64_sig, vaddl_u8_sig, vaddw_s8_sig, vaddw_s16_sig, vaddw_s32_sig, vaddw_u8_sig, vaddw_u16_sig, vaddw_u32_sig, vaddw_high_s8_sig, vaddw_high_s16_sig, vaddw_high_s32_sig, vaddw_high_u8_sig, vaddw_high_u16_sig, vaddw_high_u32_sig, vaddl_high_s8_sig, vaddl_high_s16_sig, vaddl_high_s32_sig, vaddl_high_u8_sig, vaddl_high_u16_sig, vaddl_high_u32_sig, FPRecipEstimate_sig, RecipEstimate_sig, vst1_u8_sig, vst1_s8_sig, vst1_u16_sig, vst1_s16_sig, vst1_u32_sig, vst1_s32_sig, vst1_s64_sig]

theorem defined7_read : library7.map (fun e => e.2.sig e.1) = defined7.map some :=
  cons_eq vqsubq_s16_sig_read <| cons_eq vqsubq_s32_sig_read <| cons_eq vqsubq_u8_sig_read <| cons_eq vqsubq_u16_sig_read <| cons_eq vqsubq_u32_sig_read <| cons_eq vcgtq_u8_sig_read <| cons_eq vbslq_u8_sig_read <| cons_eq vtbl1_u8_sig_read <| cons_eq vtbl2_u8_sig_read <| cons_eq vtbl4_u8_sig_read <| cons_eq vqtbl1_u8_sig_read <| cons_eq vshrn_n_s16_sig_read <| cons_eq vshrn_n_s32_sig_read <| cons_eq vshrn_n_s64_sig_read <| cons_eq vshrn_n_u16_sig_read <| cons_eq vshrn_n_u32_sig_read <| cons_eq vshrn_n_u64_sig_read <| cons_eq vshr_n_u16_sig_read <| cons_eq vqshrun_n_s16_sig_read <| cons_eq vqrshrun_n_s16_sig_read <| cons_eq vqshrn_n_s16_sig_read <| cons_eq vqshrn_n_s32_sig_read <| cons_eq vqshrn_n_u16_sig_read <| cons_eq vqshrn_n_u32_sig_read <| cons_eq vqshrn_n_u64_sig_read <| cons_eq vqshrn_n_s64_sig_read <| cons_eq vrshrn_n_u16_sig_read <| cons_eq vsraq_n_s32_sig_read <| cons_eq vshlq_n_s32_sig_read <| cons_eq vshll_n_u8_sig_read <| cons_eq vqshrun_n_s32_sig_read <| cons_eq vqshrun_n_s64_sig_read <| cons_eq vaddl_u8_sig_read <| cons_eq vaddw_s8_sig_read <| cons_eq vaddw_s16_sig_read <| cons_eq vaddw_s32_sig_read <| cons_eq vaddw_u8_sig_read <| cons_eq vaddw_u16_sig_read <| cons_eq vaddw_u32_sig_read <| cons_eq vaddw_high_s8_sig_read <| cons_eq vaddw_high_s16_sig_read <| cons_eq vaddw_high_s32_sig_read <| cons_eq vaddw_high_u8_sig_read <| cons_eq vaddw_high_u16_sig_read <| cons_eq vaddw_high_u32_sig_read <| cons_eq vaddl_high_s8_sig_read <| cons_eq vaddl_high_s16_sig_read <| cons_eq vaddl_high_s32_sig_read <| cons_eq vaddl_high_u8_sig_read <| cons_eq vaddl_high_u16_sig_read <| cons_eq vaddl_high_u32_sig_read <| cons_eq FPRecipEstimate_sig_read <| cons_eq RecipEstimate_sig_read <| cons_eq vst1_u8_sig_read <| cons_eq vst1_s8_sig_read <| cons_eq vst1_u16_sig_read <| cons_eq vst1_s16_sig_read <| cons_eq vst1_u32_sig_read <| cons_eq vst1_s32_sig_read <| cons_eq vst1_s64_sig_read <| rfl

noncomputable def defined8 : List Sig := [vst1_u64_sig, vst1q_u8_sig, vst1q_s8_sig, vst1q_u16_sig, vst1q_s16_sig, vst1q_u32_sig, vst1q_s32_sig, vst1q_s64_sig, vst1q_u64_sig, vst1q_f32_sig, vst2_s8_sig, vst2_s16_sig, vst2_s32_sig, vst2_u8_sig, vst2_u16_sig, vst2_u32_sig, vst2q_s8_sig, vst2q_s16_sig, vst2q_s32_sig, vst2q_u8_sig, vst2q_u16_sig, vst2q_u32_sig, vst3_s8_sig, vst3_s16_sig, vst3_s32_sig, vst3_u8_sig, vst3_u16_sig, vst3_u32_sig, vst3q_s8_sig, vst3q_s16_sig, vst3q_s32_sig, vst3q_u8_sig, vst3q_u16_sig, vst3q_u32_sig, vst4_s8_sig, vst4_s16_sig, vst4_s32_sig, vst4_u8_sig, vst4_u16_sig, vst4_u32_sig, vst4q_s8_sig, vst4q_s16_sig, vst4q_s32_sig, vst4q_u8_sig, vst4q_u16_sig, vst4q_u32_sig, vst4q_lane_f32_sig, vsubl_s8_sig, vsubl_s16_sig, vsubl_s32_sig, vsubl_u8_sig, vsubl_u16_sig, vsubl_u32_sig, vsubw_s8_sig, vsubw_s16_sig, vsubw_s32_sig, vsubw_u8_sig, vsubw_u16_sig, vsubw_u32_sig]

theorem defined8_read : library8.map (fun e => e.2.sig e.1) = defined8.map some :=
  cons_eq vst1_u64_sig_read <| cons_eq vst1q_u8_sig_read <| cons_eq vst1q_s8_sig_read <| cons_eq vst1q_u16_sig_read <| cons_eq vst1q_s16_sig_read <| cons_eq vst1q_u32_sig_read <| cons_eq vst1q_s32_sig_read <| cons_eq vst1q_s64_sig_read <| cons_eq vst1q_u64_sig_read <| cons_eq vst1q_f32_sig_read <| cons_eq vst2_s8_sig_read <| cons_eq vst2_s16_sig_read <| cons_eq vst2_s32_sig_read <| cons_eq vst2_u8_sig_read <| cons_eq vst2_u16_sig_read <| cons_eq vst2_u32_sig_read <| cons_eq vst2q_s8_sig_read <| cons_eq vst2q_s16_sig_read <| cons_eq vst2q_s32_sig_read <| cons_eq vst2q_u8_sig_read <| cons_eq vst2q_u16_sig_read <| cons_eq vst2q_u32_sig_read <| cons_eq vst3_s8_sig_read <| cons_eq vst3_s16_sig_read <| cons_eq vst3_s32_sig_read <| cons_eq vst3_u8_sig_read <| cons_eq vst3_u16_sig_read <| cons_eq vst3_u32_sig_read <| cons_eq vst3q_s8_sig_read <| cons_eq vst3q_s16_sig_read <| cons_eq vst3q_s32_sig_read <| cons_eq vst3q_u8_sig_read <| cons_eq vst3q_u16_sig_read <| cons_eq vst3q_u32_sig_read <| cons_eq vst4_s8_sig_read <| cons_eq vst4_s16_sig_read <| cons_eq vst4_s32_sig_read <| cons_eq vst4_u8_sig_read <| cons_eq vst4_u16_sig_read <| cons_eq vst4_u32_sig_read <| cons_eq vst4q_s8_sig_read <| cons_eq vst4q_s16_sig_read <| cons_eq vst4q_s32_sig_read <| cons_eq vst4q_u8_sig_read <| cons_eq vst4q_u16_sig_read <| cons_eq vst4q_u32_sig_read <| cons_eq vst4q_lane_f32_sig_read <| cons_eq vsubl_s8_sig_read <| cons_eq vsubl_s16_sig_read <| cons_eq vsubl_s32_sig_read <| cons_eq vsubl_u8_sig_read <| cons_eq vsubl_u16_sig_read <| cons_eq vsubl_u32_sig_read <| cons_eq vsubw_s8_sig_read <| cons_eq vsubw_s16_sig_read <| cons_eq vsubw_s32_sig_read <| cons_eq vsubw_u8_sig_read <| cons_eq vsubw_u16_sig_read <| cons_eq vsubw_u32_sig_read <| rfl

/-- The functions defined in `neon_sim.cpp`, with their types. -/
noncomputable def defined : List Sig :=
  defined0 ++ defined1 ++ defined2 ++ defined3 ++ defined4 ++ defined5 ++ defined6 ++ defined7 ++ defined8

/-- These are the signatures in the texts of the definitions. -/
theorem defined_read : library.map (fun e => e.2.sig e.1) = defined.map some := by
  simp only [library, defined, List.map_append, defined0_read, defined1_read, defined2_read, defined3_read, defined4_read, defined5_read, defined6_read, defined7_read, defined8_read]

end

end Verif.Props
