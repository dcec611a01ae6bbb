{
 "claims": [
  {
   "property": "C01",
   "status": "proved",
   "theorems": [
    "Verif.Props.vld1_u8_spec",
    "Verif.Props.vld1_s8_spec",
    "Verif.Props.vld1_u16_spec",
    "Verif.Props.vld1_s16_spec",
    "Verif.Props.vld1_u32_spec",
    "Verif.Props.vld1_u64_spec",
    "Verif.Props.vld1_s32_spec",
    "Verif.Props.vld1_s64_spec",
    "Verif.Props.vld1_f32_spec",
    "Verif.Props.vld1_f64_spec",
    "Verif.Props.vld1q_u8_spec",
    "Verif.Props.vld1q_s8_spec",
    "Verif.Props.vld1q_u16_spec",
    "Verif.Props.vld1q_s16_spec",
    "Verif.Props.vld1q_u32_spec",
    "Verif.Props.vld1q_s32_spec",
    "Verif.Props.vld1q_s64_spec",
    "Verif.Props.vld1q_u64_spec",
    "Verif.Props.vld1q_f32_spec"
   ],
   "note": ""
  },
  {
   "property": "C02",
   "status": "proved",
   "theorems": [
    "Verif.Props.vld2_u8_spec",
    "Verif.Props.vld2_s8_spec",
    "Verif.Props.vld2_u16_spec",
    "Verif.Props.vld2_s16_spec",
    "Verif.Props.vld2_u32_spec",
    "Verif.Props.vld2_f32_spec",
    "Verif.Props.vld2q_u8_spec",
    "Verif.Props.vld2q_s8_spec",
    "Verif.Props.vld2q_u16_spec",
    "Verif.Props.vld2q_s16_spec",
    "Verif.Props.vld2q_u32_spec",
    "Verif.Props.vld2q_s32_spec",
    "Verif.Props.vld3_u8_spec",
    "Verif.Props.vld3_s8_spec",
    "Verif.Props.vld3_u16_spec",
    "Verif.Props.vld3_s16_spec",
    "Verif.Props.vld3_u32_spec",
    "Verif.Props.vld3_s32_spec",
    "Verif.Props.vld3_f32_spec",
    "Verif.Props.vld3q_u8_spec",
    "Verif.Props.vld3q_s8_spec",
    "Verif.Props.vld3q_u16_spec",
    "Verif.Props.vld3q_s16_spec",
    "Verif.Props.vld3q_u32_spec",
    "Verif.Props.vld3q_s32_spec",
    "Verif.Props.vld4_u8_spec",
    "Verif.Props.vld4_s8_spec",
    "Verif.Props.vld4_u16_spec",
    "Verif.Props.vld4_s16_spec",
    "Verif.Props.vld4_u32_spec",
    "Verif.Props.vld4_s32_spec",
    "Verif.Props.vld4_f32_spec",
    "Verif.Props.vld4q_u8_spec",
    "Verif.Props.vld4q_s8_spec",
    "Verif.Props.vld4q_u16_spec",
    "Verif.Props.vld4q_s16_spec",
    "Verif.Props.vld4q_u32_spec",
    "Verif.Props.vld4q_s32_spec",
    "Verif.Props.vld_s32_spec"
   ],
   "note": "`vld2_s32` is defined in the code under the name `vld_s32`."
  },
  {
   "property": "C03",
   "status": "proved",
   "theorems": [
    "Verif.Props.vdup_n_s8_spec",
    "Verif.Props.vdup_n_s16_spec",
    "Verif.Props.vdup_n_s32_spec",
    "Verif.Props.vdup_n_s64_spec",
    "Verif.Props.vdup_n_u8_spec",
    "Verif.Props.vdup_n_u16_spec",
    "Verif.Props.vdup_n_u32_spec",
    "Verif.Props.vdup_n_u64_spec",
    "Verif.Props.vdupq_n_u8_spec",
    "Verif.Props.vdupq_n_s8_spec",
    "Verif.Props.vdupq_n_u16_spec",
    "Verif.Props.vdupq_n_s16_spec",
    "Verif.Props.vdupq_n_u32_spec",
    "Verif.Props.vdupq_n_s32_spec",
    "Verif.Props.vdupq_n_f32_spec",
    "Verif.Props.vmovq_n_f32_spec",
    "Verif.Props.vld1q_dup_f32_spec"
   ],
   "note": ""
  },
  {
   "property": "C04",
   "status": "proved",
   "theorems": [
    "Verif.Props.vld1_lane_s8_spec",
    "Verif.Props.vld1_lane_s8_unreadable",
    "Verif.Props.vld1_lane_u8_spec",
    "Verif.Props.vld1_lane_u8_unreadable",
    "Verif.Props.vld2_lane_u8_spec",
    "Verif.Props.vld3_lane_u8_spec",
    "Verif.Props.vld4_lane_u8_spec"
   ],
   "note": "The out-of-range case is C05."
  },
  {
   "property": "C05",
   "status": "partial",
   "theorems": [
    "Verif.Props.vld1_lane_s8_oob",
    "Verif.Props.vld1_lane_u8_oob",
    "Verif.Props.vld2_lane_u8_abort",
    "Verif.Props.vld3_lane_u8_abort",
    "Verif.Props.vld4_lane_u8_abort",
    "Verif.Props.vget_lane_f32_oob",
    "Verif.Props.vgetq_lane_u8_oob",
    "Verif.Props.vgetq_lane_u16_oob",
    "Verif.Props.vgetq_lane_u32_oob",
    "Verif.Props.vgetq_lane_u64_oob",
    "Verif.Props.vgetq_lane_s8_oob",
    "Verif.Props.vgetq_lane_s16_oob",
    "Verif.Props.vgetq_lane_s32_oob",
    "Verif.Props.vgetq_lane_s64_oob",
    "Verif.Props.vgetq_lane_f64_oob",
    "Verif.Props.vgetq_lane_f32_abort",
    "Verif.Props.vst4q_lane_f32_oob"
   ],
   "note": "True of vld2/3/4_lane_u8 and vgetq_lane_f32 (`_abort`). False of the others: an out-of-range index is not checked and is undefined behaviour (`_oob`)."
  },
  {
   "property": "C06",
   "status": "proved",
   "theorems": [
    "Verif.Props.vst1_u8_spec",
    "Verif.Props.vst1_s8_spec",
    "Verif.Props.vst1_u16_spec",
    "Verif.Props.vst1_s16_spec",
    "Verif.Props.vst1_u32_spec",
    "Verif.Props.vst1_s32_spec",
    "Verif.Props.vst1_s64_spec",
    "Verif.Props.vst1_u64_spec",
    "Verif.Props.vst1q_u8_spec",
    "Verif.Props.vst1q_s8_spec",
    "Verif.Props.vst1q_u16_spec",
    "Verif.Props.vst1q_s16_spec",
    "Verif.Props.vst1q_u32_spec",
    "Verif.Props.vst1q_s32_spec",
    "Verif.Props.vst1q_s64_spec",
    "Verif.Props.vst1q_u64_spec",
    "Verif.Props.vst1q_f32_spec"
   ],
   "note": ""
  },
  {
   "property": "C07",
   "status": "partial",
   "theorems": [
    "Verif.Props.vst2_s8_spec",
    "Verif.Props.vst2_s16_spec",
    "Verif.Props.vst2_s32_spec",
    "Verif.Props.vst2_u8_spec",
    "Verif.Props.vst2_u16_spec",
    "Verif.Props.vst2_u32_spec",
    "Verif.Props.vst2q_s8_spec",
    "Verif.Props.vst2q_s16_spec",
    "Verif.Props.vst2q_s32_spec",
    "Verif.Props.vst2q_u8_spec",
    "Verif.Props.vst2q_u16_spec",
    "Verif.Props.vst2q_u32_spec",
    "Verif.Props.vst3_s8_spec",
    "Verif.Props.vst3_s16_spec",
    "Verif.Props.vst3_s32_spec",
    "Verif.Props.vst3_u8_spec",
    "Verif.Props.vst3_u16_spec",
    "Verif.Props.vst3_u32_spec",
    "Verif.Props.vst3q_s8_spec",
    "Verif.Props.vst3q_s16_spec",
    "Verif.Props.vst3q_s32_spec",
    "Verif.Props.vst3q_u8_spec",
    "Verif.Props.vst3q_u16_spec",
    "Verif.Props.vst3q_u32_spec",
    "Verif.Props.vst4_s8_spec",
    "Verif.Props.vst4_s16_spec",
    "Verif.Props.vst4_s32_spec",
    "Verif.Props.vst4_u16_spec",
    "Verif.Props.vst4q_s8_spec",
    "Verif.Props.vst4q_s16_spec",
    "Verif.Props.vst4q_s32_spec",
    "Verif.Props.vst4q_u8_spec",
    "Verif.Props.vst4q_u16_spec",
    "Verif.Props.vst4q_u32_spec",
    "Verif.Props.vst4_u8_partial",
    "Verif.Props.vst4_u8_wrong",
    "Verif.Props.vst4_u32_partial"
   ],
   "note": "True of every vst2/3/4 except vst4_u8 and vst4_u32, which write wrong elements (`vst4_u8_wrong`, `vst4_u32_partial` says exactly what is written)."
  },
  {
   "property": "C08",
   "status": "partial",
   "theorems": [
    "Verif.Props.vst1_u8_vld1_u8",
    "Verif.Props.vld1_u8_vst1_u8",
    "Verif.Props.vst1_s8_vld1_s8",
    "Verif.Props.vld1_s8_vst1_s8",
    "Verif.Props.vst1_u16_vld1_u16",
    "Verif.Props.vld1_u16_vst1_u16",
    "Verif.Props.vst1_s16_vld1_s16",
    "Verif.Props.vld1_s16_vst1_s16",
    "Verif.Props.vst1_u32_vld1_u32",
    "Verif.Props.vld1_u32_vst1_u32",
    "Verif.Props.vst1_s32_vld1_s32",
    "Verif.Props.vld1_s32_vst1_s32",
    "Verif.Props.vst1_s64_vld1_s64",
    "Verif.Props.vld1_s64_vst1_s64",
    "Verif.Props.vst1_u64_vld1_u64",
    "Verif.Props.vld1_u64_vst1_u64",
    "Verif.Props.vst1q_u8_vld1q_u8",
    "Verif.Props.vld1q_u8_vst1q_u8",
    "Verif.Props.vst1q_s8_vld1q_s8",
    "Verif.Props.vld1q_s8_vst1q_s8",
    "Verif.Props.vst1q_u16_vld1q_u16",
    "Verif.Props.vld1q_u16_vst1q_u16",
    "Verif.Props.vst1q_s16_vld1q_s16",
    "Verif.Props.vld1q_s16_vst1q_s16",
    "Verif.Props.vst1q_u32_vld1q_u32",
    "Verif.Props.vld1q_u32_vst1q_u32",
    "Verif.Props.vst1q_s32_vld1q_s32",
    "Verif.Props.vld1q_s32_vst1q_s32",
    "Verif.Props.vst1q_s64_vld1q_s64",
    "Verif.Props.vld1q_s64_vst1q_s64",
    "Verif.Props.vst1q_u64_vld1q_u64",
    "Verif.Props.vld1q_u64_vst1q_u64",
    "Verif.Props.vst1q_f32_vld1q_f32",
    "Verif.Props.vld1q_f32_vst1q_f32",
    "Verif.Props.vst2_s8_vld2_s8",
    "Verif.Props.vld2_s8_vst2_s8",
    "Verif.Props.vst2_s16_vld2_s16",
    "Verif.Props.vld2_s16_vst2_s16",
    "Verif.Props.vst2_s32_vld_s32",
    "Verif.Props.vld_s32_vst2_s32",
    "Verif.Props.vst2_u8_vld2_u8",
    "Verif.Props.vld2_u8_vst2_u8",
    "Verif.Props.vst2_u16_vld2_u16",
    "Verif.Props.vld2_u16_vst2_u16",
    "Verif.Props.vst2_u32_vld2_u32",
    "Verif.Props.vld2_u32_vst2_u32",
    "Verif.Props.vst2q_s8_vld2q_s8",
    "Verif.Props.vld2q_s8_vst2q_s8",
    "Verif.Props.vst2q_s16_vld2q_s16",
    "Verif.Props.vld2q_s16_vst2q_s16",
    "Verif.Props.vst2q_s32_vld2q_s32",
    "Verif.Props.vld2q_s32_vst2q_s32",
    "Verif.Props.vst2q_u8_vld2q_u8",
    "Verif.Props.vld2q_u8_vst2q_u8",
    "Verif.Props.vst2q_u16_vld2q_u16",
    "Verif.Props.vld2q_u16_vst2q_u16",
    "Verif.Props.vst2q_u32_vld2q_u32",
    "Verif.Props.vld2q_u32_vst2q_u32",
    "Verif.Props.vst3_s8_vld3_s8",
    "Verif.Props.vld3_s8_vst3_s8",
    "Verif.Props.vst3_s16_vld3_s16",
    "Verif.Props.vld3_s16_vst3_s16",
    "Verif.Props.vst3_s32_vld3_s32",
    "Verif.Props.vld3_s32_vst3_s32",
    "Verif.Props.vst3_u8_vld3_u8",
    "Verif.Props.vld3_u8_vst3_u8",
    "Verif.Props.vst3_u16_vld3_u16",
    "Verif.Props.vld3_u16_vst3_u16",
    "Verif.Props.vst3_u32_vld3_u32",
    "Verif.Props.vld3_u32_vst3_u32",
    "Verif.Props.vst3q_s8_vld3q_s8",
    "Verif.Props.vld3q_s8_vst3q_s8",
    "Verif.Props.vst3q_s16_vld3q_s16",
    "Verif.Props.vld3q_s16_vst3q_s16",
    "Verif.Props.vst3q_s32_vld3q_s32",
    "Verif.Props.vld3q_s32_vst3q_s32",
    "Verif.Props.vst3q_u8_vld3q_u8",
    "Verif.Props.vld3q_u8_vst3q_u8",
    "Verif.Props.vst3q_u16_vld3q_u16",
    "Verif.Props.vld3q_u16_vst3q_u16",
    "Verif.Props.vst3q_u32_vld3q_u32",
    "Verif.Props.vld3q_u32_vst3q_u32",
    "Verif.Props.vst4_s8_vld4_s8",
    "Verif.Props.vld4_s8_vst4_s8",
    "Verif.Props.vst4_s16_vld4_s16",
    "Verif.Props.vld4_s16_vst4_s16",
    "Verif.Props.vst4_s32_vld4_s32",
    "Verif.Props.vld4_s32_vst4_s32",
    "Verif.Props.vst4_u16_vld4_u16",
    "Verif.Props.vld4_u16_vst4_u16",
    "Verif.Props.vst4q_s8_vld4q_s8",
    "Verif.Props.vld4q_s8_vst4q_s8",
    "Verif.Props.vst4q_s16_vld4q_s16",
    "Verif.Props.vld4q_s16_vst4q_s16",
    "Verif.Props.vst4q_s32_vld4q_s32",
    "Verif.Props.vld4q_s32_vst4q_s32",
    "Verif.Props.vst4q_u8_vld4q_u8",
    "Verif.Props.vld4q_u8_vst4q_u8",
    "Verif.Props.vst4q_u16_vld4q_u16",
    "Verif.Props.vld4q_u16_vst4q_u16",
    "Verif.Props.vst4q_u32_vld4q_u32",
    "Verif.Props.vld4q_u32_vst4q_u32",
    "Verif.Props.vst4_u8_vld4_u8_wrong",
    "Verif.Props.vst4_u32_vld4_u32_wrong"
   ],
   "note": "Both directions proved for every pair of the code except vst4_u8 and vst4_u32, refuted for these."
  },
  {
   "property": "C09",
   "status": "partial",
   "theorems": [
    "Verif.Props.stores_frame_partial",
    "Verif.Props.stores_frame_vst4_u8_wrong",
    "Verif.Props.stores_last_write_partial",
    "Verif.Props.stores_defined_partial",
    "Verif.Props.stores_history",
    "Verif.Props.stores_frame"
   ],
   "note": "Proved for every history of stores without vst4_u8, by induction on the history; with vst4_u8 the claim is false (`stores_frame_vst4_u8_wrong`). `stores_frame` is for every history, with the elements that the calls really write (vst4_u8: one past its block)."
  },
  {
   "property": "C10",
   "status": "proved",
   "theorems": [
    "Verif.Props.vst4q_lane_f32_spec"
   ],
   "note": "For every in-range lane; the out-of-range case is C05."
  },
  {
   "property": "C11",
   "status": "partial",
   "theorems": [
    "Verif.Props.vadd_s8_spec",
    "Verif.Props.vadd_s16_spec",
    "Verif.Props.vadd_s32_partial",
    "Verif.Props.vadd_s32_wrapv",
    "Verif.Props.vadd_s32_ub",
    "Verif.Props.vadd_s64_partial",
    "Verif.Props.vadd_s64_wrapv",
    "Verif.Props.vadd_s64_ub",
    "Verif.Props.vadd_u8_spec",
    "Verif.Props.vadd_u16_spec",
    "Verif.Props.vadd_u32_spec",
    "Verif.Props.vadd_u64_spec",
    "Verif.Props.vaddq_s8_spec",
    "Verif.Props.vaddq_s16_spec",
    "Verif.Props.vaddq_s32_partial",
    "Verif.Props.vaddq_s32_wrapv",
    "Verif.Props.vaddq_s32_ub",
    "Verif.Props.vaddq_s64_partial",
    "Verif.Props.vaddq_s64_wrapv",
    "Verif.Props.vaddq_s64_ub",
    "Verif.Props.vaddq_u8_spec",
    "Verif.Props.vaddq_u16_spec",
    "Verif.Props.vaddq_u32_spec",
    "Verif.Props.vaddq_u64_spec"
   ],
   "note": "Full for all 8/16-bit and all unsigned lanes. Signed 32/64-bit lanes: Defined exactly when no lane overflows in the C++ arithmetic type (`_partial` gives the exact condition, `_ub` a witness); with -fwrapv the full statement holds (`_wrapv`). Missing: a defined result for overflowing operands in ISO C++, which the code does not give."
  },
  {
   "property": "C12",
   "status": "partial",
   "theorems": [
    "Verif.Props.vsub_s8_spec",
    "Verif.Props.vsub_s16_spec",
    "Verif.Props.vsub_s32_partial",
    "Verif.Props.vsub_s32_wrapv",
    "Verif.Props.vsub_s32_ub",
    "Verif.Props.vsub_s64_partial",
    "Verif.Props.vsub_s64_wrapv",
    "Verif.Props.vsub_s64_ub",
    "Verif.Props.vsub_u8_spec",
    "Verif.Props.vsub_u16_spec",
    "Verif.Props.vsub_u32_spec",
    "Verif.Props.vsub_u64_spec",
    "Verif.Props.vsubq_s8_spec",
    "Verif.Props.vsubq_s16_spec",
    "Verif.Props.vsubq_s32_partial",
    "Verif.Props.vsubq_s32_wrapv",
    "Verif.Props.vsubq_s32_ub",
    "Verif.Props.vsubq_s64_partial",
    "Verif.Props.vsubq_s64_wrapv",
    "Verif.Props.vsubq_s64_ub",
    "Verif.Props.vsubq_u8_spec",
    "Verif.Props.vsubq_u16_spec",
    "Verif.Props.vsubq_u32_spec",
    "Verif.Props.vsubq_u64_spec"
   ],
   "note": "Full for all 8/16-bit and all unsigned lanes. Signed 32/64-bit lanes: Defined exactly when no lane overflows in the C++ arithmetic type (`_partial` gives the exact condition, `_ub` a witness); with -fwrapv the full statement holds (`_wrapv`). Missing: a defined result for overflowing operands in ISO C++, which the code does not give."
  },
  {
   "property": "C13",
   "status": "partial",
   "theorems": [
    "Verif.Props.vaddl_u8_spec",
    "Verif.Props.vaddl_u8_exact",
    "Verif.Props.vaddl_high_s8_spec",
    "Verif.Props.vaddl_high_s8_exact",
    "Verif.Props.vaddl_high_s16_spec",
    "Verif.Props.vaddl_high_s16_exact",
    "Verif.Props.vaddl_high_s32_partial",
    "Verif.Props.vaddl_high_s32_wrapv",
    "Verif.Props.vaddl_high_s32_ub",
    "Verif.Props.vaddl_high_s32_wrong",
    "Verif.Props.vaddl_high_u8_spec",
    "Verif.Props.vaddl_high_u8_exact",
    "Verif.Props.vaddl_high_u16_spec",
    "Verif.Props.vaddl_high_u16_exact",
    "Verif.Props.vaddl_high_u32_partial",
    "Verif.Props.vaddl_high_u32_wrong"
   ],
   "note": "False of vaddl_high_s32 and vaddl_high_u32, which add in 32 bits (`_wrong`)."
  },
  {
   "property": "C14",
   "status": "partial",
   "theorems": [
    "Verif.Props.vaddw_s8_spec",
    "Verif.Props.vaddw_s16_partial",
    "Verif.Props.vaddw_s16_wrapv",
    "Verif.Props.vaddw_s16_ub",
    "Verif.Props.vaddw_s32_partial",
    "Verif.Props.vaddw_s32_wrapv",
    "Verif.Props.vaddw_s32_ub",
    "Verif.Props.vaddw_u8_spec",
    "Verif.Props.vaddw_u16_spec",
    "Verif.Props.vaddw_u32_spec",
    "Verif.Props.vaddw_high_s8_spec",
    "Verif.Props.vaddw_high_s16_partial",
    "Verif.Props.vaddw_high_s16_wrapv",
    "Verif.Props.vaddw_high_s16_ub",
    "Verif.Props.vaddw_high_s32_partial",
    "Verif.Props.vaddw_high_s32_wrapv",
    "Verif.Props.vaddw_high_s32_ub",
    "Verif.Props.vaddw_high_u8_spec",
    "Verif.Props.vaddw_high_u16_spec",
    "Verif.Props.vaddw_high_u32_spec"
   ],
   "note": "Signed s16/s32 forms: Defined exactly when no lane overflows in the C++ arithmetic type (`_partial` gives the exact condition, `_ub` a witness); with -fwrapv the full statement holds (`_wrapv`). Missing: a defined result for overflowing operands in ISO C++, which the code does not give."
  },
  {
   "property": "C15",
   "status": "partial",
   "theorems": [
    "Verif.Props.vaddhn_high_s16_spec",
    "Verif.Props.vaddhn_high_s32_partial",
    "Verif.Props.vaddhn_high_s32_wrapv",
    "Verif.Props.vaddhn_high_s32_ub",
    "Verif.Props.vaddhn_high_s32_wrong",
    "Verif.Props.vaddhn_high_s64_partial",
    "Verif.Props.vaddhn_high_s64_wrapv",
    "Verif.Props.vaddhn_high_s64_ub",
    "Verif.Props.vaddhn_high_s64_wrong",
    "Verif.Props.vaddhn_high_u16_spec",
    "Verif.Props.vaddhn_high_u32_partial",
    "Verif.Props.vaddhn_high_u32_wrong",
    "Verif.Props.vaddhn_high_u64_partial",
    "Verif.Props.vaddhn_high_u64_wrong"
   ],
   "note": "Full for s16/u16. False of the 32/64-bit forms, which shift by 4 and 2 (`_wrong`)."
  },
  {
   "property": "C16",
   "status": "partial",
   "theorems": [
    "Verif.Props.vsubhn_s16_spec",
    "Verif.Props.vsubn_s32_partial",
    "Verif.Props.vsubn_s32_wrapv",
    "Verif.Props.vsubn_s32_ub",
    "Verif.Props.vsubn_s32_wrong",
    "Verif.Props.vsubn_s64_partial",
    "Verif.Props.vsubn_s64_wrapv",
    "Verif.Props.vsubn_s64_ub",
    "Verif.Props.vsubn_s64_wrong",
    "Verif.Props.vsubhn_u16_spec",
    "Verif.Props.vsubn_u32_partial",
    "Verif.Props.vsubn_u32_wrong",
    "Verif.Props.vsubn_u64_partial",
    "Verif.Props.vsubn_u64_wrong"
   ],
   "note": "Full for s16/u16. The 32/64-bit forms are defined under the name vsubn_* and shift by 8 (`_wrong`)."
  },
  {
   "property": "C17",
   "status": "partial",
   "theorems": [
    "Verif.Props.vrsubhn_s16_spec",
    "Verif.Props.vrsubhn_s32_partial",
    "Verif.Props.vrsubhn_s32_wrapv",
    "Verif.Props.vrsubhn_s32_ub",
    "Verif.Props.vrsubhn_s64_partial",
    "Verif.Props.vrsubhn_s64_wrapv",
    "Verif.Props.vrsubhn_s64_ub",
    "Verif.Props.vrsubhn_s64_wrong",
    "Verif.Props.vrsubhn_u16_spec",
    "Verif.Props.vrsubhn_u32_spec",
    "Verif.Props.vrsubhn_u64_partial",
    "Verif.Props.vrsubhn_u64_wrong",
    "Verif.Props.vrsubhn_u64_off_by_one"
   ],
   "note": "Full for s16/u16/u32; s32 when the code does not overflow. False of the 64-bit forms (`_wrong`, `_off_by_one`)."
  },
  {
   "property": "C18",
   "status": "partial",
   "theorems": [
    "Verif.Props.vhsub_s8_spec",
    "Verif.Props.vhsub_s16_spec",
    "Verif.Props.vhsub_s32_partial",
    "Verif.Props.vhsub_s32_wrapv",
    "Verif.Props.vhsub_s32_ub",
    "Verif.Props.vhsub_s32_wrong",
    "Verif.Props.vhsub_u8_spec",
    "Verif.Props.vhsub_u16_spec",
    "Verif.Props.vhsub_u32_partial",
    "Verif.Props.vhsub_u32_wrong",
    "Verif.Props.vhsubq_s8_spec",
    "Verif.Props.vhsubq_s16_spec",
    "Verif.Props.vhsubq_s32_partial",
    "Verif.Props.vhsubq_s32_wrapv",
    "Verif.Props.vhsubq_s32_ub",
    "Verif.Props.vhsubq_s32_wrong",
    "Verif.Props.vhsubq_u8_spec",
    "Verif.Props.vhsubq_u16_spec",
    "Verif.Props.vhsubq_u32_partial",
    "Verif.Props.vhsubq_u32_wrong"
   ],
   "note": "Full for 8/16-bit lanes. False of the 32-bit lanes, where the difference overflows before halving (`_wrong`)."
  },
  {
   "property": "C19",
   "status": "proved",
   "theorems": [
    "Verif.Props.vqadd_u8_spec",
    "Verif.Props.vqaddq_u8_spec"
   ],
   "note": "Only the u8 forms are defined in the code."
  },
  {
   "property": "C20",
   "status": "proved",
   "theorems": [
    "Verif.Props.vqsub_s8_spec",
    "Verif.Props.vqsub_s16_spec",
    "Verif.Props.vqsub_s32_spec",
    "Verif.Props.vqsub_u8_spec",
    "Verif.Props.vqsub_u16_spec",
    "Verif.Props.vqsub_u32_spec",
    "Verif.Props.vqsubq_s8_spec",
    "Verif.Props.vqsubq_s16_spec",
    "Verif.Props.vqsubq_s32_spec",
    "Verif.Props.vqsubq_u8_spec",
    "Verif.Props.vqsubq_u16_spec",
    "Verif.Props.vqsubq_u32_spec"
   ],
   "note": ""
  },
  {
   "property": "C21",
   "status": "partial",
   "theorems": [
    "Verif.Props.vqsub_s64_eval",
    "Verif.Props.vqsub_s64_exact",
    "Verif.Props.vqsub_s64_bnd",
    "Verif.Props.vqsub_s64_ub",
    "Verif.Props.vqsub_s64_partial",
    "Verif.Props.vqsub_s64_self",
    "Verif.Props.vqsub_s64_nonpos",
    "Verif.Props.vqsub_s64_nonneg",
    "Verif.Props.vqsub_s64_error",
    "Verif.Props.vqsub_s64_wrong",
    "Verif.Props.vqsubq_s64_eval",
    "Verif.Props.vqsubq_s64_exact",
    "Verif.Props.vqsubq_s64_bnd",
    "Verif.Props.vqsubq_s64_ub",
    "Verif.Props.vqsubq_s64_partial",
    "Verif.Props.vqsubq_s64_self",
    "Verif.Props.vqsubq_s64_nonpos",
    "Verif.Props.vqsubq_s64_nonneg",
    "Verif.Props.vqsubq_s64_error",
    "Verif.Props.vqsubq_s64_wrong",
    "Verif.Props.vqsub_u64_eval",
    "Verif.Props.vqsub_u64_exact",
    "Verif.Props.vqsub_u64_bnd",
    "Verif.Props.vqsub_u64_ub",
    "Verif.Props.vqsub_u64_partial",
    "Verif.Props.vqsub_u64_self",
    "Verif.Props.vqsub_u64_zero",
    "Verif.Props.vqsub_u64_error",
    "Verif.Props.vqsub_u64_wrong",
    "Verif.Props.vqsubq_u64_eval",
    "Verif.Props.vqsubq_u64_exact",
    "Verif.Props.vqsubq_u64_bnd",
    "Verif.Props.vqsubq_u64_ub",
    "Verif.Props.vqsubq_u64_partial",
    "Verif.Props.vqsubq_u64_self",
    "Verif.Props.vqsubq_u64_zero",
    "Verif.Props.vqsubq_u64_error",
    "Verif.Props.vqsubq_u64_wrong",
    "Verif.Props.doubleDiff_exists",
    "Verif.Props.doubleDiff_exact",
    "Verif.Props.doubleDiff_self",
    "Verif.Props.doubleDiff_nonpos",
    "Verif.Props.doubleDiff_nonneg",
    "Verif.Props.doubleDiff_error"
   ],
   "note": "The code computes in double. Exact when the operands are at most 2^53 in magnitude (`_partial`), error at most 3072 otherwise (`_error`), undefined for e.g. INT64_MAX - 0 (`_ub`); the claim itself is false (`_wrong`)."
  },
  {
   "property": "C22",
   "status": "partial",
   "theorems": [
    "Verif.Props.vsubl_s8_spec",
    "Verif.Props.vsubl_s8_exact",
    "Verif.Props.vsubl_s16_spec",
    "Verif.Props.vsubl_s16_exact",
    "Verif.Props.vsubl_s32_spec",
    "Verif.Props.vsubl_s32_exact",
    "Verif.Props.vsubl_u8_spec",
    "Verif.Props.vsubl_u16_spec",
    "Verif.Props.vsubl_u32_spec",
    "Verif.Props.vsubw_s8_spec",
    "Verif.Props.vsubw_s16_partial",
    "Verif.Props.vsubw_s16_wrapv",
    "Verif.Props.vsubw_s16_ub",
    "Verif.Props.vsubw_s32_partial",
    "Verif.Props.vsubw_s32_wrapv",
    "Verif.Props.vsubw_s32_ub",
    "Verif.Props.vsubw_u8_spec",
    "Verif.Props.vsubw_u16_spec",
    "Verif.Props.vsubw_u32_spec"
   ],
   "note": "vsubl full. vsubw s16/s32: Defined exactly when no lane overflows in the C++ arithmetic type (`_partial` gives the exact condition, `_ub` a witness); with -fwrapv the full statement holds (`_wrapv`). Missing: a defined result for overflowing operands in ISO C++, which the code does not give."
  },
  {
   "property": "C23",
   "status": "partial",
   "theorems": [
    "Verif.Props.vmul_s8_spec",
    "Verif.Props.vmul_s16_spec",
    "Verif.Props.vmul_s32_partial",
    "Verif.Props.vmul_s32_wrapv",
    "Verif.Props.vmul_s32_ub",
    "Verif.Props.vmul_u8_spec",
    "Verif.Props.vmul_u16_partial",
    "Verif.Props.vmul_u16_wrapv",
    "Verif.Props.vmul_u16_ub",
    "Verif.Props.vmul_u32_spec",
    "Verif.Props.vmulq_s8_spec",
    "Verif.Props.vmulq_s16_spec",
    "Verif.Props.vmulq_s32_partial",
    "Verif.Props.vmulq_s32_wrapv",
    "Verif.Props.vmulq_s32_ub",
    "Verif.Props.vmulq_u8_spec",
    "Verif.Props.vmulq_u16_partial",
    "Verif.Props.vmulq_u16_wrapv",
    "Verif.Props.vmulq_u16_ub",
    "Verif.Props.vmulq_u32_spec",
    "Verif.Props.vmul_n_s16_spec",
    "Verif.Props.vmul_n_s32_partial",
    "Verif.Props.vmul_n_s32_wrapv",
    "Verif.Props.vmul_n_s32_ub",
    "Verif.Props.vmul_n_u16_partial",
    "Verif.Props.vmul_n_u16_wrapv",
    "Verif.Props.vmul_n_u16_ub",
    "Verif.Props.vmul_n_u32_spec",
    "Verif.Props.vmulq_n_s16_spec",
    "Verif.Props.vmulq_n_s32_partial",
    "Verif.Props.vmulq_n_s32_wrapv",
    "Verif.Props.vmulq_n_s32_ub",
    "Verif.Props.vmulq_n_u16_partial",
    "Verif.Props.vmulq_n_u16_wrapv",
    "Verif.Props.vmulq_n_u16_ub",
    "Verif.Props.vmulq_n_u32_spec"
   ],
   "note": "Full for 8-bit, s16 and u32 lanes. u16 (promoted to int) and s32: Defined exactly when no lane overflows in the C++ arithmetic type (`_partial` gives the exact condition, `_ub` a witness); with -fwrapv the full statement holds (`_wrapv`). Missing: a defined result for overflowing operands in ISO C++, which the code does not give."
  },
  {
   "property": "C24",
   "status": "partial",
   "theorems": [
    "Verif.Props.vmull_s8_spec",
    "Verif.Props.vmull_s8_exact",
    "Verif.Props.vmull_s16_spec",
    "Verif.Props.vmull_s16_exact",
    "Verif.Props.vmull_s32_partial",
    "Verif.Props.vmull_s32_wrapv",
    "Verif.Props.vmull_s32_ub",
    "Verif.Props.vmull_s32_wrong",
    "Verif.Props.vmull_u8_spec",
    "Verif.Props.vmull_u8_exact",
    "Verif.Props.vmull_u16_partial",
    "Verif.Props.vmull_u16_wrapv",
    "Verif.Props.vmull_u16_ub",
    "Verif.Props.vmull_u32_partial",
    "Verif.Props.vmull_u32_wrong",
    "Verif.Props.vmull_n_s16_spec",
    "Verif.Props.vmull_n_s16_exact",
    "Verif.Props.vmull_n_s32_partial",
    "Verif.Props.vmull_n_s32_wrapv",
    "Verif.Props.vmull_n_s32_ub",
    "Verif.Props.vmull_n_s32_wrong",
    "Verif.Props.vmull_n_u16_partial",
    "Verif.Props.vmull_n_u16_wrapv",
    "Verif.Props.vmull_n_u16_ub",
    "Verif.Props.vmull_n_u32_partial",
    "Verif.Props.vmull_n_u32_wrong"
   ],
   "note": "Full for s8/s16/u8; u16 when the product fits in int, or with -fwrapv. False of the 32-bit forms, which multiply in 32 bits (`_wrong`)."
  },
  {
   "property": "C25",
   "status": "proved",
   "theorems": [
    "Verif.Props.vqdmull_s16_spec",
    "Verif.Props.vqdmull_s16_saturates_iff"
   ],
   "note": ""
  },
  {
   "property": "C26",
   "status": "partial",
   "theorems": [
    "Verif.Props.vmlal_s8_spec",
    "Verif.Props.vmlal_s16_partial",
    "Verif.Props.vmlal_s16_wrapv",
    "Verif.Props.vmlal_s16_ub",
    "Verif.Props.vmlal_s32_partial",
    "Verif.Props.vmlal_s32_wrapv",
    "Verif.Props.vmlal_s32_ub",
    "Verif.Props.vmlal_s32_wrong",
    "Verif.Props.vmlal_u8_spec",
    "Verif.Props.vmlal_u16_partial",
    "Verif.Props.vmlal_u16_wrapv",
    "Verif.Props.vmlal_u16_ub",
    "Verif.Props.vmlal_u32_partial",
    "Verif.Props.vmlal_u32_wrong",
    "Verif.Props.vmlsl_s8_spec",
    "Verif.Props.vmlsl_s16_partial",
    "Verif.Props.vmlsl_s16_wrapv",
    "Verif.Props.vmlsl_s16_ub",
    "Verif.Props.vmlsl_s32_partial",
    "Verif.Props.vmlsl_s32_wrapv",
    "Verif.Props.vmlsl_s32_ub",
    "Verif.Props.vmlsl_s32_wrong",
    "Verif.Props.vmlsl_u8_spec",
    "Verif.Props.vmlsl_u16_partial",
    "Verif.Props.vmlsl_u16_wrapv",
    "Verif.Props.vmlsl_u16_ub",
    "Verif.Props.vmlsl_u32_partial",
    "Verif.Props.vmlsl_u32_wrong"
   ],
   "note": "Full for s8/u8; s16/u16 when defined or with -fwrapv. False of the 32-bit forms (`_wrong`)."
  },
  {
   "property": "C27",
   "status": "partial",
   "theorems": [
    "Verif.Props.vmlaq_s8_spec",
    "Verif.Props.vmlaq_s16_spec",
    "Verif.Props.vmlaq_s32_partial",
    "Verif.Props.vmlaq_s32_wrapv",
    "Verif.Props.vmlaq_s32_ub",
    "Verif.Props.vmlaq_u8_spec",
    "Verif.Props.vmlaq_u16_partial",
    "Verif.Props.vmlaq_u16_wrapv",
    "Verif.Props.vmlaq_u16_ub",
    "Verif.Props.vmlaq_u32_spec"
   ],
   "note": "Full for s8/s16/u8/u32. s32 and u16: Defined exactly when no lane overflows in the C++ arithmetic type (`_partial` gives the exact condition, `_ub` a witness); with -fwrapv the full statement holds (`_wrapv`). Missing: a defined result for overflowing operands in ISO C++, which the code does not give."
  },
  {
   "property": "C28",
   "status": "proved",
   "theorems": [
    "Verif.Props.vpaddl_u8_spec",
    "Verif.Props.vpaddl_u8_exact",
    "Verif.Props.vpaddlq_u8_spec",
    "Verif.Props.vpaddlq_u8_exact",
    "Verif.Props.vpaddlq_u16_spec",
    "Verif.Props.vpaddlq_u16_exact"
   ],
   "note": ""
  },
  {
   "property": "C29",
   "status": "proved",
   "theorems": [
    "Verif.Props.vmaxq_s8_spec",
    "Verif.Props.vmaxq_s8_exact",
    "Verif.Props.vmaxq_s16_spec",
    "Verif.Props.vmaxq_s16_exact",
    "Verif.Props.vmaxq_s32_spec",
    "Verif.Props.vmaxq_s32_exact",
    "Verif.Props.vminq_s8_spec",
    "Verif.Props.vminq_s8_exact",
    "Verif.Props.vminq_s16_spec",
    "Verif.Props.vminq_s16_exact",
    "Verif.Props.vminq_s32_spec",
    "Verif.Props.vminq_s32_exact",
    "Verif.Props.vmaxq_s8_comm",
    "Verif.Props.vmaxq_s8_assoc",
    "Verif.Props.vmaxq_s8_self",
    "Verif.Props.vmaxq_s8_absorb",
    "Verif.Props.vmaxq_s8_distrib",
    "Verif.Props.vminq_s8_comm",
    "Verif.Props.vminq_s8_assoc",
    "Verif.Props.vminq_s8_self",
    "Verif.Props.vminq_s8_absorb",
    "Verif.Props.vminq_s8_distrib",
    "Verif.Props.vmaxq_s16_comm",
    "Verif.Props.vmaxq_s16_assoc",
    "Verif.Props.vmaxq_s16_self",
    "Verif.Props.vmaxq_s16_absorb",
    "Verif.Props.vmaxq_s16_distrib",
    "Verif.Props.vminq_s16_comm",
    "Verif.Props.vminq_s16_assoc",
    "Verif.Props.vminq_s16_self",
    "Verif.Props.vminq_s16_absorb",
    "Verif.Props.vminq_s16_distrib",
    "Verif.Props.vmaxq_s32_comm",
    "Verif.Props.vmaxq_s32_assoc",
    "Verif.Props.vmaxq_s32_self",
    "Verif.Props.vmaxq_s32_absorb",
    "Verif.Props.vmaxq_s32_distrib",
    "Verif.Props.vminq_s32_comm",
    "Verif.Props.vminq_s32_assoc",
    "Verif.Props.vminq_s32_self",
    "Verif.Props.vminq_s32_absorb",
    "Verif.Props.vminq_s32_distrib"
   ],
   "note": ""
  },
  {
   "property": "C30",
   "status": "partial",
   "theorems": [
    "Verif.Props.vmaxq_u8_partial",
    "Verif.Props.vmaxq_u8_wrong",
    "Verif.Props.vmaxq_u16_partial",
    "Verif.Props.vmaxq_u16_wrong",
    "Verif.Props.vmaxq_u32_partial",
    "Verif.Props.vmaxq_u32_wrong",
    "Verif.Props.vminq_u8_partial",
    "Verif.Props.vminq_u8_wrong",
    "Verif.Props.vminq_u16_partial",
    "Verif.Props.vminq_u16_wrong",
    "Verif.Props.vminq_u32_partial",
    "Verif.Props.vminq_u32_wrong"
   ],
   "note": "True when no lane has its top bit set (`_partial`); the code compares the lanes as signed numbers, so the claim is false in general (`_wrong`)."
  },
  {
   "property": "C31",
   "status": "partial",
   "theorems": [
    "Verif.Props.vmaxq_f32_partial",
    "Verif.Props.vmaxq_f32_nan",
    "Verif.Props.vmaxq_f32_wrong",
    "Verif.Props.vminq_f32_partial",
    "Verif.Props.vminq_f32_nan",
    "Verif.Props.vminq_f32_wrong",
    "Verif.Props.vpmax_f32_partial",
    "Verif.Props.vpmax_f32_wrong",
    "Verif.Props.vpmin_f32_partial",
    "Verif.Props.vpmin_f32_wrong",
    "Verif.Props.vmaxq_f32_assoc"
   ],
   "note": "True of non-NaN operands; a NaN in the second operand is returned, a NaN in the first is dropped (`_nan`, `_wrong`)."
  },
  {
   "property": "C32",
   "status": "proved",
   "theorems": [
    "Verif.Props.vcltq_f32_spec",
    "Verif.Props.vcltq_f32_nan",
    "Verif.Props.vcgtq_u8_spec"
   ],
   "note": ""
  },
  {
   "property": "C33",
   "status": "partial",
   "theorems": [
    "Verif.Props.vbslq_u8_spec",
    "Verif.Props.vbslq_f32_partial",
    "Verif.Props.vbslq_f32_wrong"
   ],
   "note": "Full for vbslq_u8. vbslq_f32 selects whole lanes by mask != 0: correct for all-ones/all-zeros lanes only."
  },
  {
   "property": "C34",
   "status": "proved",
   "theorems": [
    "Verif.Props.vbslq_f32_vcltq_f32",
    "Verif.Props.vminq_f32_eq_select",
    "Verif.Props.vmaxq_f32_eq_select"
   ],
   "note": ""
  },
  {
   "property": "C35",
   "status": "proved",
   "theorems": [
    "Verif.Props.vand_s8_spec",
    "Verif.Props.vand_s16_spec",
    "Verif.Props.vand_s32_spec",
    "Verif.Props.vand_s64_spec",
    "Verif.Props.vand_u8_spec",
    "Verif.Props.vand_u16_spec",
    "Verif.Props.vand_u32_spec",
    "Verif.Props.vand_u64_spec",
    "Verif.Props.vandq_s8_spec",
    "Verif.Props.vandq_s16_spec",
    "Verif.Props.vandq_s32_spec",
    "Verif.Props.vandq_s64_spec",
    "Verif.Props.vandq_u8_spec",
    "Verif.Props.vandq_u16_spec",
    "Verif.Props.vandq_u32_spec",
    "Verif.Props.vandq_u64_spec",
    "Verif.Props.vorr_s8_spec",
    "Verif.Props.vorr_s16_spec",
    "Verif.Props.vorr_s32_spec",
    "Verif.Props.vorr_s64_spec",
    "Verif.Props.vorr_u8_spec",
    "Verif.Props.vorr_u16_spec",
    "Verif.Props.vorr_u32_spec",
    "Verif.Props.vorr_u64_spec",
    "Verif.Props.vorrq_s8_spec",
    "Verif.Props.vorrq_s16_spec",
    "Verif.Props.vorrq_s32_spec",
    "Verif.Props.vorrq_s64_spec",
    "Verif.Props.vorrq_u8_spec",
    "Verif.Props.vorrq_u16_spec",
    "Verif.Props.vorrq_u32_spec",
    "Verif.Props.vorrq_u64_spec",
    "Verif.Props.veor_s8_spec",
    "Verif.Props.veor_s16_spec",
    "Verif.Props.veor_s32_spec",
    "Verif.Props.veor_s64_spec",
    "Verif.Props.veor_u8_spec",
    "Verif.Props.veor_u16_spec",
    "Verif.Props.ver_u32_spec",
    "Verif.Props.veor_u64_spec",
    "Verif.Props.veorq_s8_spec",
    "Verif.Props.veorq_s16_spec",
    "Verif.Props.veorq_s32_spec",
    "Verif.Props.veorq_s64_spec",
    "Verif.Props.veorq_u8_spec",
    "Verif.Props.veorq_u16_spec",
    "Verif.Props.veorq_u32_spec",
    "Verif.Props.veorq_u64_spec",
    "Verif.Props.vmvn_s8_spec",
    "Verif.Props.vmvn_s8_involutive",
    "Verif.Props.vmvn_s8_vand",
    "Verif.Props.vmvn_s8_vorr",
    "Verif.Props.vmvn_s16_spec",
    "Verif.Props.vmvn_s16_involutive",
    "Verif.Props.vmvn_s16_vand",
    "Verif.Props.vmvn_s16_vorr",
    "Verif.Props.vmvn_s32_spec",
    "Verif.Props.vmvn_s32_involutive",
    "Verif.Props.vmvn_s32_vand",
    "Verif.Props.vmvn_s32_vorr",
    "Verif.Props.vmvn_u8_spec",
    "Verif.Props.vmvn_u8_involutive",
    "Verif.Props.vmvn_u8_vand",
    "Verif.Props.vmvn_u8_vorr",
    "Verif.Props.vmvn_u16_spec",
    "Verif.Props.vmvn_u16_involutive",
    "Verif.Props.vmvn_u16_vand",
    "Verif.Props.vmvn_u16_vorr",
    "Verif.Props.vmvn_u32_spec",
    "Verif.Props.vmvn_u32_involutive",
    "Verif.Props.vmvn_u32_vand",
    "Verif.Props.vmvn_u32_vorr",
    "Verif.Props.vmvnq_s8_spec",
    "Verif.Props.vmvnq_s8_involutive",
    "Verif.Props.vmvnq_s8_vand",
    "Verif.Props.vmvnq_s8_vorr",
    "Verif.Props.vmvnq_s16_spec",
    "Verif.Props.vmvnq_s16_involutive",
    "Verif.Props.vmvnq_s16_vand",
    "Verif.Props.vmvnq_s16_vorr",
    "Verif.Props.vmvnq_s32_spec",
    "Verif.Props.vmvnq_s32_involutive",
    "Verif.Props.vmvnq_s32_vand",
    "Verif.Props.vmvnq_s32_vorr",
    "Verif.Props.vmvnq_u8_spec",
    "Verif.Props.vmvnq_u8_involutive",
    "Verif.Props.vmvnq_u8_vand",
    "Verif.Props.vmvnq_u8_vorr",
    "Verif.Props.vmvnq_u16_spec",
    "Verif.Props.vmvnq_u16_involutive",
    "Verif.Props.vmvnq_u16_vand",
    "Verif.Props.vmvnq_u16_vorr",
    "Verif.Props.vmvnq_u32_spec",
    "Verif.Props.vmvnq_u32_involutive",
    "Verif.Props.vmvnq_u32_vand",
    "Verif.Props.vmvnq_u32_vorr",
    "Verif.Props.veor_s8_cancel",
    "Verif.Props.veor_s16_cancel",
    "Verif.Props.veor_s32_cancel",
    "Verif.Props.veor_s64_cancel",
    "Verif.Props.veor_u8_cancel",
    "Verif.Props.veor_u16_cancel",
    "Verif.Props.ver_u32_cancel",
    "Verif.Props.veor_u64_cancel",
    "Verif.Props.veorq_s8_cancel",
    "Verif.Props.veorq_s16_cancel",
    "Verif.Props.veorq_s32_cancel",
    "Verif.Props.veorq_s64_cancel",
    "Verif.Props.veorq_u8_cancel",
    "Verif.Props.veorq_u16_cancel",
    "Verif.Props.veorq_u32_cancel",
    "Verif.Props.veorq_u64_cancel"
   ],
   "note": ""
  },
  {
   "property": "C36",
   "status": "proved",
   "theorems": [
    "Verif.Props.vget_low_f32_spec",
    "Verif.Props.vget_low_s32_spec",
    "Verif.Props.vget_low_u32_spec",
    "Verif.Props.vget_low_s16_spec",
    "Verif.Props.vget_low_u16_spec",
    "Verif.Props.vget_low_s8_spec",
    "Verif.Props.vget_low_u8_spec",
    "Verif.Props.vget_high_f32_spec",
    "Verif.Props.vget_high_s32_spec",
    "Verif.Props.vget_high_u32_spec",
    "Verif.Props.vget_high_s16_spec",
    "Verif.Props.vget_high_u16_spec",
    "Verif.Props.vget_high_s8_spec",
    "Verif.Props.vget_high_u8_spec",
    "Verif.Props.vcombine_u8_spec",
    "Verif.Props.vcombine_u8_low",
    "Verif.Props.vcombine_u8_high",
    "Verif.Props.vcombine_u8_halves",
    "Verif.Props.vcombine_u16_spec",
    "Verif.Props.vcombine_u16_low",
    "Verif.Props.vcombine_u16_high",
    "Verif.Props.vcombine_u16_halves",
    "Verif.Props.vcombine_u32_spec",
    "Verif.Props.vcombine_u32_low",
    "Verif.Props.vcombine_u32_high",
    "Verif.Props.vcombine_u32_halves",
    "Verif.Props.vcombine_s8_spec",
    "Verif.Props.vcombine_s8_low",
    "Verif.Props.vcombine_s8_high",
    "Verif.Props.vcombine_s8_halves",
    "Verif.Props.vcombine_s16_spec",
    "Verif.Props.vcombine_s16_low",
    "Verif.Props.vcombine_s16_high",
    "Verif.Props.vcombine_s16_halves",
    "Verif.Props.vcombine_s32_spec",
    "Verif.Props.vcombine_s32_low",
    "Verif.Props.vcombine_s32_high",
    "Verif.Props.vcombine_s32_halves"
   ],
   "note": ""
  },
  {
   "property": "C37",
   "status": "proved",
   "theorems": [
    "Verif.Props.vget_lane_f32_spec",
    "Verif.Props.vgetq_lane_u8_spec",
    "Verif.Props.vgetq_lane_u16_spec",
    "Verif.Props.vgetq_lane_u32_spec",
    "Verif.Props.vgetq_lane_u64_spec",
    "Verif.Props.vgetq_lane_s8_spec",
    "Verif.Props.vgetq_lane_s16_spec",
    "Verif.Props.vgetq_lane_s32_spec",
    "Verif.Props.vgetq_lane_s64_spec",
    "Verif.Props.vgetq_lane_f64_spec",
    "Verif.Props.vgetq_lane_f32_spec"
   ],
   "note": ""
  },
  {
   "property": "C38",
   "status": "proved",
   "theorems": [
    "Verif.Props.vtrn_s8_spec",
    "Verif.Props.vtrn_s8_involutive",
    "Verif.Props.vtrn_u8_spec",
    "Verif.Props.vtrn_u8_involutive",
    "Verif.Props.vtrn_s16_spec",
    "Verif.Props.vtrn_s16_involutive",
    "Verif.Props.vtrn_u16_spec",
    "Verif.Props.vtrn_u16_involutive",
    "Verif.Props.vtrn_s32_spec",
    "Verif.Props.vtrn_s32_involutive",
    "Verif.Props.vtrn_u32_spec",
    "Verif.Props.vtrn_u32_involutive",
    "Verif.Props.vtrnq_u16_spec",
    "Verif.Props.vtrnq_u16_involutive",
    "Verif.Props.vtrnq_u32_spec",
    "Verif.Props.vtrnq_u32_involutive",
    "Verif.Props.vtrnq_s16_spec",
    "Verif.Props.vtrnq_s16_involutive"
   ],
   "note": ""
  },
  {
   "property": "C39",
   "status": "proved",
   "theorems": [
    "Verif.Props.vzip_s16_spec",
    "Verif.Props.vzip_s8_spec",
    "Verif.Props.vzip_u8_spec",
    "Verif.Props.vuzp_u8_spec",
    "Verif.Props.vuzp_u8_vzip_u8",
    "Verif.Props.vzip_u8_vuzp_u8",
    "Verif.Props.vuzp_s8_spec",
    "Verif.Props.vuzp_s8_vzip_s8",
    "Verif.Props.vzip_s8_vuzp_s8"
   ],
   "note": "vuzp_s16 is not defined in the code, so vzip_s16 has no inverse there."
  },
  {
   "property": "C40",
   "status": "partial",
   "theorems": [
    "Verif.Props.vrev16_s8_spec",
    "Verif.Props.vrev16_s8_involutive",
    "Verif.Props.vrev16_u8_spec",
    "Verif.Props.vrev16_u8_involutive",
    "Verif.Props.vrev16q_s8_spec",
    "Verif.Props.vrev16q_s8_involutive",
    "Verif.Props.vrev16q_u8_spec",
    "Verif.Props.vrev16q_u8_involutive",
    "Verif.Props.vrev32_s8_partial",
    "Verif.Props.vrev32_s8_wrong",
    "Verif.Props.vrev32_s16_spec",
    "Verif.Props.vrev32_s16_involutive",
    "Verif.Props.vrev32_u8_spec",
    "Verif.Props.vrev32_u8_involutive",
    "Verif.Props.vrev32_u16_spec",
    "Verif.Props.vrev32_u16_involutive",
    "Verif.Props.vrev32q_s8_spec",
    "Verif.Props.vrev32q_s8_involutive",
    "Verif.Props.vrev32q_s16_spec",
    "Verif.Props.vrev32q_s16_involutive",
    "Verif.Props.vrev32q_u8_spec",
    "Verif.Props.vrev32q_u8_involutive",
    "Verif.Props.vrev32q_u16_spec",
    "Verif.Props.vrev32q_u16_involutive",
    "Verif.Props.vrev64_s8_spec",
    "Verif.Props.vrev64_s8_involutive",
    "Verif.Props.vrev64_s16_spec",
    "Verif.Props.vrev64_s16_involutive",
    "Verif.Props.vrev64_s32_spec",
    "Verif.Props.vrev64_s32_involutive",
    "Verif.Props.vrev64_u8_spec",
    "Verif.Props.vrev64_u8_involutive",
    "Verif.Props.vrev64_u16_spec",
    "Verif.Props.vrev64_u16_involutive",
    "Verif.Props.vrev64_u32_spec",
    "Verif.Props.vrev64_u32_involutive",
    "Verif.Props.vrev64_f32_spec",
    "Verif.Props.vrev64_f32_involutive",
    "Verif.Props.vrev64q_s8_partial",
    "Verif.Props.vrev64q_s8_wrong",
    "Verif.Props.vrev64q_s16_partial",
    "Verif.Props.vrev64q_s16_wrong",
    "Verif.Props.vrev64q_s32_spec",
    "Verif.Props.vrev64q_s32_involutive",
    "Verif.Props.vrev64q_u8_spec",
    "Verif.Props.vrev64q_u8_involutive",
    "Verif.Props.vrev64q_u16_spec",
    "Verif.Props.vrev64q_u16_involutive",
    "Verif.Props.vrev64q_u32_spec",
    "Verif.Props.vrev64q_u32_involutive",
    "Verif.Props.vrev64q_f32_spec",
    "Verif.Props.vrev64q_f32_involutive"
   ],
   "note": "False of vrev32_s8 (reads outside the operand) and vrev64q_s8/s16 (upper half never written); full for the other 24."
  },
  {
   "property": "C41",
   "status": "proved",
   "theorems": [
    "Verif.Props.vext_u8_spec",
    "Verif.Props.vext_u8_abort",
    "Verif.Props.vext_u16_spec",
    "Verif.Props.vext_u16_abort",
    "Verif.Props.vext_s16_spec",
    "Verif.Props.vext_s16_abort",
    "Verif.Props.vextq_u16_spec",
    "Verif.Props.vextq_u16_abort"
   ],
   "note": "vext_u8 and vextq_u16 also permit n = 8 (an all-second-operand window); 'permitted' is what the code permits."
  },
  {
   "property": "C42",
   "status": "partial",
   "theorems": [
    "Verif.Props.vtbl1_u8_spec",
    "Verif.Props.vtbl2_u8_spec",
    "Verif.Props.vtbl4_u8_spec",
    "Verif.Props.vqtbl1_u8_partial",
    "Verif.Props.vqtbl1_u8_oob"
   ],
   "note": "Full for vtbl1/2/4_u8. vqtbl1_u8 reads outside the table for an index of 16 or more (`_oob`)."
  },
  {
   "property": "C43",
   "status": "proved",
   "theorems": [
    "Verif.Props.vmovn_s32_spec",
    "Verif.Props.vmovn_u32_spec",
    "Verif.Props.vmovn_u16_spec",
    "Verif.Props.vmovl_u8_spec",
    "Verif.Props.vmovl_u8_exact",
    "Verif.Props.vmovl_u16_spec",
    "Verif.Props.vmovl_u16_exact",
    "Verif.Props.vmovl_u32_spec",
    "Verif.Props.vmovl_u32_exact",
    "Verif.Props.vmovl_s8_spec",
    "Verif.Props.vmovl_s8_exact",
    "Verif.Props.vmovl_s16_spec",
    "Verif.Props.vmovl_s16_exact",
    "Verif.Props.vmovl_s32_spec",
    "Verif.Props.vmovl_s32_exact",
    "Verif.Props.vqmovn_u16_spec",
    "Verif.Props.vqmovun_s16_spec",
    "Verif.Props.vmovn_s32_vmovl_s16",
    "Verif.Props.vmovn_u32_vmovl_u16",
    "Verif.Props.vmovn_u16_vmovl_u8",
    "Verif.Props.vqmovn_u16_vmovl_u8"
   ],
   "note": ""
  },
  {
   "property": "C44",
   "status": "proved",
   "theorems": [
    "Verif.Props.vshrn_n_s16_spec",
    "Verif.Props.vshrn_n_s16_abort",
    "Verif.Props.vshrn_n_s32_spec",
    "Verif.Props.vshrn_n_s32_abort",
    "Verif.Props.vshrn_n_s64_spec",
    "Verif.Props.vshrn_n_s64_abort",
    "Verif.Props.vshrn_n_u16_spec",
    "Verif.Props.vshrn_n_u16_abort",
    "Verif.Props.vshrn_n_u32_spec",
    "Verif.Props.vshrn_n_u32_abort",
    "Verif.Props.vshrn_n_u64_spec",
    "Verif.Props.vshrn_n_u64_abort"
   ],
   "note": ""
  },
  {
   "property": "C45",
   "status": "partial",
   "theorems": [
    "Verif.Props.vshr_n_u16_partial",
    "Verif.Props.vshr_n_u16_abort",
    "Verif.Props.vshr_n_u16_wrong"
   ],
   "note": "Proved for n in [1,8]; the code aborts for n in [9,16] (`_wrong`)."
  },
  {
   "property": "C46",
   "status": "proved",
   "theorems": [
    "Verif.Props.vqshrun_n_s16_spec",
    "Verif.Props.vqshrun_n_s16_abort",
    "Verif.Props.vqrshrun_n_s16_spec",
    "Verif.Props.vqrshrun_n_s16_abort"
   ],
   "note": ""
  },
  {
   "property": "C47",
   "status": "partial",
   "theorems": [
    "Verif.Props.vqshrun_n_s32_abort",
    "Verif.Props.vqshrun_n_s64_abort",
    "Verif.Props.vqshrun_n_s32_wrong",
    "Verif.Props.vqshrun_n_s32_partial",
    "Verif.Props.vqshrun_n_s64_wrong",
    "Verif.Props.vqshrun_n_s64_partial"
   ],
   "note": "False of the code: no lane of the result is ever written (`_wrong`); `_partial` says what is true, the range check (`_abort`) is right."
  },
  {
   "property": "C48",
   "status": "partial",
   "theorems": [
    "Verif.Props.vqshrn_n_s16_spec",
    "Verif.Props.vqshrn_n_s32_spec",
    "Verif.Props.vqshrn_n_u16_spec",
    "Verif.Props.vqshrn_n_u32_spec",
    "Verif.Props.vqshrn_n_u64_spec",
    "Verif.Props.vqshrn_n_s64_partial",
    "Verif.Props.vqshrn_n_s64_fits",
    "Verif.Props.vqshrn_n_s64_wrong"
   ],
   "note": "Full for s16/s32/u16/u32/u64. vqshrn_n_s64 truncates before clamping (`_wrong`); right when the shifted lane fits (`_fits`)."
  },
  {
   "property": "C49",
   "status": "proved",
   "theorems": [
    "Verif.Props.vrshrn_n_u16_spec"
   ],
   "note": ""
  },
  {
   "property": "C50",
   "status": "partial",
   "theorems": [
    "Verif.Props.vsraq_n_s32_partial",
    "Verif.Props.vsraq_n_s32_wrong",
    "Verif.Props.vsraq_n_s32_n32"
   ],
   "note": "False of the code, which also shifts the accumulator (`_wrong`)."
  },
  {
   "property": "C51",
   "status": "partial",
   "theorems": [
    "Verif.Props.vshlq_n_s32_partial",
    "Verif.Props.vshlq_n_s32_wrapv",
    "Verif.Props.vshlq_n_s32_ub",
    "Verif.Props.vshll_n_u8_spec",
    "Verif.Props.vshll_n_u8_exact"
   ],
   "note": "vshll_n_u8 full. vshlq_n_s32 of a negative or overflowing lane is undefined in C++11; full with -fwrapv."
  },
  {
   "property": "C52",
   "status": "proved",
   "theorems": [
    "Verif.Props.vreinterpret_u8_s8_spec",
    "Verif.Props.vreinterpretq_s16_u16_spec",
    "Verif.Props.vreinterpretq_u16_s16_spec",
    "Verif.Props.vreinterpret_u16_u8_spec",
    "Verif.Props.vreinterpret_u32_u16_spec",
    "Verif.Props.vreinterpret_u8_u32_spec",
    "Verif.Props.vreinterpret_u32_u8_spec",
    "Verif.Props.vreinterpret_s8_u8_spec",
    "Verif.Props.vreinterpret_s32_s16_spec",
    "Verif.Props.vreinterpret_s16_s32_spec",
    "Verif.Props.vreinterpretq_u8_s8_spec",
    "Verif.Props.vreinterpretq_u8_s16_spec",
    "Verif.Props.vreinterpretq_u8_s32_spec",
    "Verif.Props.vreinterpretq_u8_f32_spec",
    "Verif.Props.vreinterpretq_u8_u16_spec",
    "Verif.Props.vreinterpretq_u8_u32_spec",
    "Verif.Props.vreinterpretq_u8_u64_spec",
    "Verif.Props.vreinterpretq_u8_s64_spec",
    "Verif.Props.vreinterpretq_u8_f64_spec",
    "Verif.Props.vreinterpretq_u32_s8_spec",
    "Verif.Props.vreinterpretq_u32_s16_spec",
    "Verif.Props.vreinterpretq_u32_s32_spec",
    "Verif.Props.vreinterpretq_u32_f32_spec",
    "Verif.Props.vreinterpretq_u32_u8_spec",
    "Verif.Props.vreinterpretq_u32_u16_spec",
    "Verif.Props.vreinterpretq_u32_u64_spec",
    "Verif.Props.vreinterpretq_u32_s64_spec",
    "Verif.Props.vreinterpretq_u32_f64_spec",
    "Verif.Props.vreinterpret_s8_u8_vreinterpret_u8_s8",
    "Verif.Props.vreinterpretq_u16_s16_vreinterpretq_s16_u16",
    "Verif.Props.vreinterpretq_s16_u16_vreinterpretq_u16_s16",
    "Verif.Props.vreinterpret_u32_u8_vreinterpret_u8_u32",
    "Verif.Props.vreinterpret_u8_u32_vreinterpret_u32_u8",
    "Verif.Props.vreinterpret_u8_s8_vreinterpret_s8_u8",
    "Verif.Props.vreinterpret_s16_s32_vreinterpret_s32_s16",
    "Verif.Props.vreinterpret_s32_s16_vreinterpret_s16_s32",
    "Verif.Props.vreinterpretq_u32_u8_vreinterpretq_u8_u32",
    "Verif.Props.vreinterpretq_u8_u32_vreinterpretq_u32_u8"
   ],
   "note": "Round trips for the pairs where both directions are defined in the code."
  },
  {
   "property": "C53",
   "status": "proved",
   "theorems": [
    "Verif.Props.vcvtq_f32_s32_spec",
    "Verif.Props.vcvtq_f32_s32_exact"
   ],
   "note": ""
  },
  {
   "property": "C54",
   "status": "partial",
   "theorems": [
    "Verif.Props.vcvtq_s32_f32_partial",
    "Verif.Props.vcvtq_s32_f32_ub",
    "Verif.Props.vcvtq_u32_f32_partial",
    "Verif.Props.vcvtq_u32_f32_ub",
    "Verif.Props.vcvtq_s32_f32_wrong",
    "Verif.Props.vcvtq_u32_f32_wrong"
   ],
   "note": "Truncation proved for in-range lanes; out-of-range lanes and NaN are undefined behaviour."
  },
  {
   "property": "C55",
   "status": "partial",
   "theorems": [
    "Verif.Props.vcvtnq_s32_f32_exact",
    "Verif.Props.vcvtnq_s32_f32_ub",
    "Verif.Props.vcvtnq_s32_f32_partial",
    "Verif.Props.vcvtnq_s32_f32_wrong"
   ],
   "note": "False of the code, which truncates (`_wrong`); right for integral in-range lanes (`_exact`)."
  },
  {
   "property": "C56",
   "status": "proved",
   "theorems": [
    "Verif.Props.recip_normal_iff",
    "Verif.Props.recip_accurate",
    "Verif.Props.vrecpeq_f32_spec"
   ],
   "note": ""
  },
  {
   "property": "C57",
   "status": "partial",
   "theorems": [
    "Verif.Props.vrecpeq_f32_lane",
    "Verif.Props.vrecpeq_f32_sign_partial",
    "Verif.Props.vrecpeq_f32_nan_wrong",
    "Verif.Props.vrecpeq_f32_zero_wrong",
    "Verif.Props.vrecpeq_f32_huge_wrong"
   ],
   "note": "Only the sign is right; NaN, zeros, infinities and huge operands give wrong values (`_wrong`)."
  },
  {
   "property": "C58",
   "status": "proved",
   "theorems": [
    "Verif.Props.vaddq_f32_spec",
    "Verif.Props.vsub_f32_spec",
    "Verif.Props.vsub_f32_overload2_spec",
    "Verif.Props.vsubq_f32_spec",
    "Verif.Props.vmulq_f32_spec",
    "Verif.Props.vmul_n_f32_spec",
    "Verif.Props.vmul_n_f64_spec",
    "Verif.Props.vmulq_n_f32_spec",
    "Verif.Props.vmulq_n_f64_spec",
    "Verif.Props.vdiv_f32_spec",
    "Verif.Props.vdiv_f64_spec",
    "Verif.Props.vdivq_f32_spec",
    "Verif.Props.vdivq_f64_spec",
    "Verif.Props.vmlaq_f32_spec",
    "Verif.Props.vmlaq_n_f32_spec",
    "Verif.Props.vaddq_f32_comm",
    "Verif.Props.vmulq_f32_comm",
    "Verif.Props.isSum_unique",
    "Verif.Props.isDiff_unique",
    "Verif.Props.isProd_unique",
    "Verif.Props.isQuot_unique"
   ],
   "note": ""
  },
  {
   "property": "C59",
   "status": "partial",
   "theorems": [
    "Verif.Props.defined_f32_to_f32x4",
    "Verif.Props.defined_f32x2_f32_to_f32x2",
    "Verif.Props.defined_f32x2_f32x2_to_f32x2",
    "Verif.Props.defined_f32x2_to_f32x2",
    "Verif.Props.defined_f32x4_f32_to_f32x4",
    "Verif.Props.defined_f32x4_f32x4_to_f32x4",
    "Verif.Props.defined_f32x4_f32x4_to_u32x4",
    "Verif.Props.defined_f32x4_f32x4_f32_to_f32x4",
    "Verif.Props.defined_f32x4_f32x4_f32x4_to_f32x4",
    "Verif.Props.defined_f32x4_to_f32x2",
    "Verif.Props.defined_f32x4_to_f32x4",
    "Verif.Props.defined_f32x4_to_u32x4",
    "Verif.Props.defined_f32x4_to_u8x16",
    "Verif.Props.defined_f64x1_f64_to_f64x1",
    "Verif.Props.defined_f64x1_f64x1_to_f64x1",
    "Verif.Props.defined_f64x2_f64_to_f64x2",
    "Verif.Props.defined_f64x2_f64x2_to_f64x2",
    "Verif.Props.defined_f64x2_to_u32x4",
    "Verif.Props.defined_f64x2_to_u8x16",
    "Verif.Props.defined_s16_to_s16x4",
    "Verif.Props.defined_s16_to_s16x8",
    "Verif.Props.defined_s16x4_s16_to_s16x4",
    "Verif.Props.defined_s16x4_s16_to_s32x4",
    "Verif.Props.defined_s16x4_s16x4_to_s16x4",
    "Verif.Props.defined_s16x4_s16x4_to_s16x4x2",
    "Verif.Props.defined_s16x4_s16x4_to_s16x8",
    "Verif.Props.defined_s16x4_s16x4_to_s32x4",
    "Verif.Props.defined_s16x4_to_s16x4",
    "Verif.Props.defined_s16x4_to_s32x2",
    "Verif.Props.defined_s16x4_to_s32x4",
    "Verif.Props.defined_s16x8_s16_to_s16x8",
    "Verif.Props.defined_s16x8_s16x8_to_s16x8",
    "Verif.Props.defined_s16x8_s16x8_to_s16x8x2",
    "Verif.Props.defined_s16x8_s16x8_to_s32x4",
    "Verif.Props.defined_s16x8_s16x8_to_s8x8",
    "Verif.Props.defined_s16x8_s16x8_s16x8_to_s16x8",
    "Verif.Props.defined_s16x8_s8x16_to_s16x8",
    "Verif.Props.defined_s16x8_s8x8_to_s16x8",
    "Verif.Props.defined_s16x8_s8x8_s8x8_to_s16x8",
    "Verif.Props.defined_s16x8_to_s16x4",
    "Verif.Props.defined_s16x8_to_s16x8",
    "Verif.Props.defined_s16x8_to_u16x8",
    "Verif.Props.defined_s16x8_to_u32x4",
    "Verif.Props.defined_s16x8_to_u8x16",
    "Verif.Props.defined_s16x8_to_u8x8",
    "Verif.Props.defined_s32_to_s32x2",
    "Verif.Props.defined_s32_to_s32x4",
    "Verif.Props.defined_s32x2_s32x2_to_s32x2",
    "Verif.Props.defined_s32x2_s32x2_to_s32x2x2",
    "Verif.Props.defined_s32x2_s32x2_to_s32x4",
    "Verif.Props.defined_s32x2_to_s16x4",
    "Verif.Props.defined_s32x2_to_s32x2",
    "Verif.Props.defined_s32x2_to_s64x2",
    "Verif.Props.defined_s32x4_s32x2_to_s64x2",
    "Verif.Props.defined_s32x4_s32x4_to_s32x4",
    "Verif.Props.defined_s32x4_to_f32x4",
    "Verif.Props.defined_s32x4_to_s16x4",
    "Verif.Props.defined_s32x4_to_s32x2",
    "Verif.Props.defined_s32x4_to_s32x4",
    "Verif.Props.defined_s32x4_to_u32x4",
    "Verif.Props.defined_s32x4_to_u8x16",
    "Verif.Props.defined_s64_to_s64x1",
    "Verif.Props.defined_s64x1_s64x1_to_s64x1",
    "Verif.Props.defined_s64x2_s64x2_to_s64x2",
    "Verif.Props.defined_s64x2_to_u32x4",
    "Verif.Props.defined_s64x2_to_u8x16",
    "Verif.Props.defined_s8_to_s8x16",
    "Verif.Props.defined_s8_to_s8x8",
    "Verif.Props.defined_s8x16_s8x16_to_s16x8",
    "Verif.Props.defined_s8x16_s8x16_to_s8x16",
    "Verif.Props.defined_s8x16_s8x16_s8x16_to_s8x16",
    "Verif.Props.defined_s8x16_to_s8x16",
    "Verif.Props.defined_s8x16_to_s8x8",
    "Verif.Props.defined_s8x16_to_u32x4",
    "Verif.Props.defined_s8x16_to_u8x16",
    "Verif.Props.defined_s8x8_s16x8_s16x8_to_s8x16",
    "Verif.Props.defined_s8x8_s8x8_to_s16x8",
    "Verif.Props.defined_s8x8_s8x8_to_s8x16",
    "Verif.Props.defined_s8x8_s8x8_to_s8x8",
    "Verif.Props.defined_s8x8_s8x8_to_s8x8x2",
    "Verif.Props.defined_s8x8_to_s16x8",
    "Verif.Props.defined_s8x8_to_s8x8",
    "Verif.Props.defined_s8x8_to_u8x8",
    "Verif.Props.defined_u16_to_u16x4",
    "Verif.Props.defined_u16_to_u16x8",
    "Verif.Props.defined_u16x4_u16x4_to_u16x4",
    "Verif.Props.defined_u16x4_u16x4_to_u16x4x2",
    "Verif.Props.defined_u16x4_u16x4_to_u16x8",
    "Verif.Props.defined_u16x4_u16x4_to_u32x4",
    "Verif.Props.defined_u16x4_u32x4_u32x4_to_u16x8",
    "Verif.Props.defined_u16x4_to_u16x4",
    "Verif.Props.defined_u16x4_to_u32x2",
    "Verif.Props.defined_u16x4_to_u32x4",
    "Verif.Props.defined_u16x8_u16x8_to_u16x8",
    "Verif.Props.defined_u16x8_u16x8_to_u16x8x2",
    "Verif.Props.defined_u16x8_u16x8_to_u32x4",
    "Verif.Props.defined_u16x8_u16x8_to_u8x8",
    "Verif.Props.defined_u16x8_u8x16_to_u16x8",
    "Verif.Props.defined_u16x8_u8x8_to_u16x8",
    "Verif.Props.defined_u16x8_u8x8_u8x8_to_u16x8",
    "Verif.Props.defined_u16x8_to_s16x8",
    "Verif.Props.defined_u16x8_to_u16x4",
    "Verif.Props.defined_u16x8_to_u16x8",
    "Verif.Props.defined_u16x8_to_u32x4",
    "Verif.Props.defined_u16x8_to_u8x16",
    "Verif.Props.defined_u16x8_to_u8x8",
    "Verif.Props.defined_u32_to_u32x2",
    "Verif.Props.defined_u32_to_u32x4",
    "Verif.Props.defined_u32x2_u32_to_u32x2",
    "Verif.Props.defined_u32x2_u32_to_u64x2",
    "Verif.Props.defined_u32x2_u32x2_to_u32x2",
    "Verif.Props.defined_u32x2_u32x2_to_u32x2x2",
    "Verif.Props.defined_u32x2_u32x2_to_u32x4",
    "Verif.Props.defined_u32x2_u32x2_to_u64x2",
    "Verif.Props.defined_u32x2_u64x2_u64x2_to_u32x4",
    "Verif.Props.defined_u32x2_to_u32x2",
    "Verif.Props.defined_u32x2_to_u64x2",
    "Verif.Props.defined_u32x2_to_u8x8",
    "Verif.Props.defined_u32x4_f32x4_f32x4_to_f32x4",
    "Verif.Props.defined_u32x4_u16x4_to_u32x4",
    "Verif.Props.defined_u32x4_u16x8_to_u32x4",
    "Verif.Props.defined_u32x4_u32_to_u32x4",
    "Verif.Props.defined_u32x4_u32x2_to_u64x2",
    "Verif.Props.defined_u32x4_u32x4_to_u16x4",
    "Verif.Props.defined_u32x4_u32x4_to_u32x4",
    "Verif.Props.defined_u32x4_u32x4_to_u32x4x2",
    "Verif.Props.defined_u32x4_u32x4_to_u64x2",
    "Verif.Props.defined_u32x4_u32x4_u32x4_to_u32x4",
    "Verif.Props.defined_u32x4_to_u16x4",
    "Verif.Props.defined_u32x4_to_u32x2",
    "Verif.Props.defined_u32x4_to_u32x4",
    "Verif.Props.defined_u32x4_to_u8x16",
    "Verif.Props.defined_u64_to_u64x1",
    "Verif.Props.defined_u64x1_u64x1_to_u64x1",
    "Verif.Props.defined_u64x2_u32x2_to_u64x2",
    "Verif.Props.defined_u64x2_u32x2_u32x2_to_u64x2",
    "Verif.Props.defined_u64x2_u32x4_to_u64x2",
    "Verif.Props.defined_u64x2_u64x2_to_u32x2",
    "Verif.Props.defined_u64x2_u64x2_to_u64x2",
    "Verif.Props.defined_u64x2_to_u32x4",
    "Verif.Props.defined_u64x2_to_u8x16",
    "Verif.Props.defined_u8_to_u8x16",
    "Verif.Props.defined_u8_to_u8x8",
    "Verif.Props.defined_u8x16_u8x16_to_u16x8",
    "Verif.Props.defined_u8x16_u8x16_to_u8x16",
    "Verif.Props.defined_u8x16_u8x16_u8x16_to_u8x16",
    "Verif.Props.defined_u8x16_to_u16x8",
    "Verif.Props.defined_u8x16_to_u32x4",
    "Verif.Props.defined_u8x16_to_u8x16",
    "Verif.Props.defined_u8x16_to_u8x8",
    "Verif.Props.defined_u8x8_u16x8_u16x8_to_u8x16",
    "Verif.Props.defined_u8x8_u8x8_to_u16x8",
    "Verif.Props.defined_u8x8_u8x8_to_u8x16",
    "Verif.Props.defined_u8x8_u8x8_to_u8x8",
    "Verif.Props.defined_u8x8_u8x8_to_u8x8x2",
    "Verif.Props.defined_u8x8_to_s8x8",
    "Verif.Props.defined_u8x8_to_u16x4",
    "Verif.Props.defined_u8x8_to_u16x8",
    "Verif.Props.defined_u8x8_to_u32x2",
    "Verif.Props.defined_u8x8_to_u8x8",
    "Verif.Props.defined_u8x8x2_u8x8_to_u8x8",
    "Verif.Props.defined_u8x8x4_u8x8_to_u8x8",
    "Verif.Props.defined_wrapv_s16x4_s32x4_s32x4_to_s16x8",
    "Verif.Props.defined_wrapv_s32x2_s32_to_s32x2",
    "Verif.Props.defined_wrapv_s32x2_s32_to_s64x2",
    "Verif.Props.defined_wrapv_s32x2_s32x2_to_s32x2",
    "Verif.Props.defined_wrapv_s32x2_s32x2_to_s64x2",
    "Verif.Props.defined_wrapv_s32x2_s64x2_s64x2_to_s32x4",
    "Verif.Props.defined_wrapv_s32x4_s16x4_to_s32x4",
    "Verif.Props.defined_wrapv_s32x4_s16x4_s16x4_to_s32x4",
    "Verif.Props.defined_wrapv_s32x4_s16x8_to_s32x4",
    "Verif.Props.defined_wrapv_s32x4_s32_to_s32x4",
    "Verif.Props.defined_wrapv_s32x4_s32x4_to_s16x4",
    "Verif.Props.defined_wrapv_s32x4_s32x4_to_s32x4",
    "Verif.Props.defined_wrapv_s32x4_s32x4_to_s64x2",
    "Verif.Props.defined_wrapv_s32x4_s32x4_s32x4_to_s32x4",
    "Verif.Props.defined_wrapv_s64x1_s64x1_to_s64x1",
    "Verif.Props.defined_wrapv_s64x2_s32x2_to_s64x2",
    "Verif.Props.defined_wrapv_s64x2_s32x2_s32x2_to_s64x2",
    "Verif.Props.defined_wrapv_s64x2_s32x4_to_s64x2",
    "Verif.Props.defined_wrapv_s64x2_s64x2_to_s32x2",
    "Verif.Props.defined_wrapv_s64x2_s64x2_to_s64x2",
    "Verif.Props.defined_wrapv_u16x4_u16_to_u16x4",
    "Verif.Props.defined_wrapv_u16x4_u16_to_u32x4",
    "Verif.Props.defined_wrapv_u16x4_u16x4_to_u16x4",
    "Verif.Props.defined_wrapv_u16x4_u16x4_to_u32x4",
    "Verif.Props.defined_wrapv_u16x8_u16_to_u16x8",
    "Verif.Props.defined_wrapv_u16x8_u16x8_to_u16x8",
    "Verif.Props.defined_wrapv_u16x8_u16x8_u16x8_to_u16x8",
    "Verif.Props.defined_wrapv_u32x4_u16x4_u16x4_to_u32x4",
    "Verif.Props.never_defined_s8x8_to_s8x8",
    "Verif.Props.not_defined_strict_s16x4_s32x4_s32x4_to_s16x8",
    "Verif.Props.not_defined_strict_s32x2_s32_to_s32x2",
    "Verif.Props.not_defined_strict_s32x2_s32_to_s64x2",
    "Verif.Props.not_defined_strict_s32x2_s32x2_to_s32x2",
    "Verif.Props.not_defined_strict_s32x2_s32x2_to_s64x2",
    "Verif.Props.not_defined_strict_s32x2_s64x2_s64x2_to_s32x4",
    "Verif.Props.not_defined_strict_s32x4_s16x4_to_s32x4",
    "Verif.Props.not_defined_strict_s32x4_s16x4_s16x4_to_s32x4",
    "Verif.Props.not_defined_strict_s32x4_s16x8_to_s32x4",
    "Verif.Props.not_defined_strict_s32x4_s32_to_s32x4",
    "Verif.Props.not_defined_strict_s32x4_s32x4_to_s16x4",
    "Verif.Props.not_defined_strict_s32x4_s32x4_to_s32x4",
    "Verif.Props.not_defined_strict_s32x4_s32x4_to_s64x2",
    "Verif.Props.not_defined_strict_s32x4_s32x4_s32x4_to_s32x4",
    "Verif.Props.not_defined_strict_s64x1_s64x1_to_s64x1",
    "Verif.Props.not_defined_strict_s64x2_s32x2_to_s64x2",
    "Verif.Props.not_defined_strict_s64x2_s32x2_s32x2_to_s64x2",
    "Verif.Props.not_defined_strict_s64x2_s32x4_to_s64x2",
    "Verif.Props.not_defined_strict_s64x2_s64x2_to_s32x2",
    "Verif.Props.not_defined_strict_s64x2_s64x2_to_s64x2",
    "Verif.Props.not_defined_strict_u16x4_u16_to_u16x4",
    "Verif.Props.not_defined_strict_u16x4_u16_to_u32x4",
    "Verif.Props.not_defined_strict_u16x4_u16x4_to_u16x4",
    "Verif.Props.not_defined_strict_u16x4_u16x4_to_u32x4",
    "Verif.Props.not_defined_strict_u16x8_u16_to_u16x8",
    "Verif.Props.not_defined_strict_u16x8_u16x8_to_u16x8",
    "Verif.Props.not_defined_strict_u16x8_u16x8_u16x8_to_u16x8",
    "Verif.Props.not_defined_strict_u32x4_u16x4_u16x4_to_u32x4",
    "Verif.Props.not_defined_f32x4_to_s32x4",
    "Verif.Props.not_defined_f32x4_to_u32x4",
    "Verif.Props.not_defined_s64x1_s64x1_to_s64x1",
    "Verif.Props.not_defined_s64x2_s64x2_to_s64x2",
    "Verif.Props.not_defined_u64x1_u64x1_to_u64x1",
    "Verif.Props.not_defined_u64x2_u64x2_to_u64x2",
    "Verif.Props.not_defined_u8x16_u8x8_to_u8x8",
    "Verif.Props.defined_vrecpeq_f32",
    "Verif.Props.vcvtq_s32_f32_nan",
    "Verif.Props.vcvtq_u32_f32_nan",
    "Verif.Props.vcvtnq_s32_f32_nan",
    "Verif.Props.vqsub_s64_maxzero",
    "Verif.Props.vqsubq_s64_maxzero",
    "Verif.Props.vqsub_u64_maxzero",
    "Verif.Props.vqsubq_u64_maxzero",
    "Verif.Props.vrev64q_s8_partial",
    "Verif.Props.vrev64q_s16_partial"
   ],
   "note": "Every register-only intrinsic is in exactly one list: 329 defined for every operand (`defined_*`), 43 defined for every operand only with -fwrapv (`defined_wrapv_*`, and `not_defined_strict_*` refutes them in C++11), 8 with undefined behaviour for some operands (`not_defined_*`), vrev32_s8 never defined; vrev64q_s8/s16 return indeterminate lanes (C60)."
  },
  {
   "property": "C60",
   "status": "partial",
   "theorems": [
    "Verif.Props.written_pf_to_f32x2x2",
    "Verif.Props.written_pf_to_f32x2x3",
    "Verif.Props.written_pf_to_f32x2x4",
    "Verif.Props.written_f32_to_f32x4",
    "Verif.Props.written_pf32_f32x4_to_mem",
    "Verif.Props.written_pf32_f32x4x4_imm_to_mem",
    "Verif.Props.written_pf32_to_f32x2",
    "Verif.Props.written_pf32_to_f32x4",
    "Verif.Props.written_f32x2_f32_to_f32x2",
    "Verif.Props.written_f32x2_f32x2_to_f32x2",
    "Verif.Props.written_f32x2_imm_to_f32",
    "Verif.Props.written_f32x2_to_f32x2",
    "Verif.Props.written_f32x4_f32_to_f32x4",
    "Verif.Props.written_f32x4_f32x4_to_f32x4",
    "Verif.Props.written_f32x4_f32x4_to_u32x4",
    "Verif.Props.written_f32x4_f32x4_f32_to_f32x4",
    "Verif.Props.written_f32x4_f32x4_f32x4_to_f32x4",
    "Verif.Props.written_f32x4_imm_to_f32",
    "Verif.Props.written_f32x4_to_f32x2",
    "Verif.Props.written_f32x4_to_f32x4",
    "Verif.Props.written_f32x4_to_s32x4",
    "Verif.Props.written_f32x4_to_u32x4",
    "Verif.Props.written_f32x4_to_u8x16",
    "Verif.Props.written_pf64_to_f64x1",
    "Verif.Props.written_f64x1_f64_to_f64x1",
    "Verif.Props.written_f64x1_f64x1_to_f64x1",
    "Verif.Props.written_f64x2_f64_to_f64x2",
    "Verif.Props.written_f64x2_f64x2_to_f64x2",
    "Verif.Props.written_f64x2_imm_to_f64",
    "Verif.Props.written_f64x2_to_u32x4",
    "Verif.Props.written_f64x2_to_u8x16",
    "Verif.Props.written_s16_to_s16x4",
    "Verif.Props.written_s16_to_s16x8",
    "Verif.Props.written_ps16_s16x4_to_mem",
    "Verif.Props.written_ps16_s16x4x2_to_mem",
    "Verif.Props.written_ps16_s16x4x3_to_mem",
    "Verif.Props.written_ps16_s16x4x4_to_mem",
    "Verif.Props.written_ps16_s16x8_to_mem",
    "Verif.Props.written_ps16_s16x8x2_to_mem",
    "Verif.Props.written_ps16_s16x8x3_to_mem",
    "Verif.Props.written_ps16_s16x8x4_to_mem",
    "Verif.Props.written_ps16_to_s16x4",
    "Verif.Props.written_ps16_to_s16x4x2",
    "Verif.Props.written_ps16_to_s16x4x3",
    "Verif.Props.written_ps16_to_s16x4x4",
    "Verif.Props.written_ps16_to_s16x8",
    "Verif.Props.written_ps16_to_s16x8x2",
    "Verif.Props.written_ps16_to_s16x8x3",
    "Verif.Props.written_ps16_to_s16x8x4",
    "Verif.Props.written_s16x4_s16_to_s16x4",
    "Verif.Props.written_s16x4_s16_to_s32x4",
    "Verif.Props.written_s16x4_s16x4_to_s16x4",
    "Verif.Props.written_s16x4_s16x4_to_s16x4x2",
    "Verif.Props.written_s16x4_s16x4_to_s16x8",
    "Verif.Props.written_s16x4_s16x4_to_s32x4",
    "Verif.Props.written_s16x4_s16x4_imm_to_s16x4",
    "Verif.Props.written_s16x4_s32x4_s32x4_to_s16x8",
    "Verif.Props.written_s16x4_to_s16x4",
    "Verif.Props.written_s16x4_to_s32x2",
    "Verif.Props.written_s16x4_to_s32x4",
    "Verif.Props.written_s16x8_imm_to_s16",
    "Verif.Props.written_s16x8_imm_to_s8x8",
    "Verif.Props.written_s16x8_imm_to_u8x8",
    "Verif.Props.written_s16x8_s16_to_s16x8",
    "Verif.Props.written_s16x8_s16x8_to_s16x8",
    "Verif.Props.written_s16x8_s16x8_to_s16x8x2",
    "Verif.Props.written_s16x8_s16x8_to_s32x4",
    "Verif.Props.written_s16x8_s16x8_to_s8x8",
    "Verif.Props.written_s16x8_s16x8_s16x8_to_s16x8",
    "Verif.Props.written_s16x8_s8x16_to_s16x8",
    "Verif.Props.written_s16x8_s8x8_to_s16x8",
    "Verif.Props.written_s16x8_s8x8_s8x8_to_s16x8",
    "Verif.Props.written_s16x8_to_s16x4",
    "Verif.Props.written_s16x8_to_s16x8",
    "Verif.Props.written_s16x8_to_u16x8",
    "Verif.Props.written_s16x8_to_u32x4",
    "Verif.Props.written_s16x8_to_u8x16",
    "Verif.Props.written_s16x8_to_u8x8",
    "Verif.Props.written_s32_to_s32x2",
    "Verif.Props.written_s32_to_s32x4",
    "Verif.Props.written_ps32_s32x2_to_mem",
    "Verif.Props.written_ps32_s32x2x2_to_mem",
    "Verif.Props.written_ps32_s32x2x3_to_mem",
    "Verif.Props.written_ps32_s32x2x4_to_mem",
    "Verif.Props.written_ps32_s32x4_to_mem",
    "Verif.Props.written_ps32_s32x4x2_to_mem",
    "Verif.Props.written_ps32_s32x4x3_to_mem",
    "Verif.Props.written_ps32_s32x4x4_to_mem",
    "Verif.Props.written_ps32_to_s32x2",
    "Verif.Props.written_ps32_to_s32x2x2",
    "Verif.Props.written_ps32_to_s32x2x3",
    "Verif.Props.written_ps32_to_s32x2x4",
    "Verif.Props.written_ps32_to_s32x4",
    "Verif.Props.written_ps32_to_s32x4x2",
    "Verif.Props.written_ps32_to_s32x4x3",
    "Verif.Props.written_ps32_to_s32x4x4",
    "Verif.Props.written_s32x2_s32_to_s32x2",
    "Verif.Props.written_s32x2_s32_to_s64x2",
    "Verif.Props.written_s32x2_s32x2_to_s32x2",
    "Verif.Props.written_s32x2_s32x2_to_s32x2x2",
    "Verif.Props.written_s32x2_s32x2_to_s32x4",
    "Verif.Props.written_s32x2_s32x2_to_s64x2",
    "Verif.Props.written_s32x2_s64x2_s64x2_to_s32x4",
    "Verif.Props.written_s32x2_to_s16x4",
    "Verif.Props.written_s32x2_to_s32x2",
    "Verif.Props.written_s32x2_to_s64x2",
    "Verif.Props.written_s32x4_imm_to_s16x4",
    "Verif.Props.written_s32x4_imm_to_s32",
    "Verif.Props.written_s32x4_imm_to_s32x4",
    "Verif.Props.written_s32x4_s16x4_to_s32x4",
    "Verif.Props.written_s32x4_s16x4_s16x4_to_s32x4",
    "Verif.Props.written_s32x4_s16x8_to_s32x4",
    "Verif.Props.written_s32x4_s32_to_s32x4",
    "Verif.Props.written_s32x4_s32x2_to_s64x2",
    "Verif.Props.written_s32x4_s32x4_to_s16x4",
    "Verif.Props.written_s32x4_s32x4_to_s32x4",
    "Verif.Props.written_s32x4_s32x4_to_s64x2",
    "Verif.Props.written_s32x4_s32x4_imm_to_s32x4",
    "Verif.Props.written_s32x4_s32x4_s32x4_to_s32x4",
    "Verif.Props.written_s32x4_to_f32x4",
    "Verif.Props.written_s32x4_to_s16x4",
    "Verif.Props.written_s32x4_to_s32x2",
    "Verif.Props.written_s32x4_to_s32x4",
    "Verif.Props.written_s32x4_to_u32x4",
    "Verif.Props.written_s32x4_to_u8x16",
    "Verif.Props.written_s64_to_s64x1",
    "Verif.Props.written_ps64_s64x1_to_mem",
    "Verif.Props.written_ps64_s64x2_to_mem",
    "Verif.Props.written_ps64_to_s64x1",
    "Verif.Props.written_ps64_to_s64x2",
    "Verif.Props.written_s64x1_s64x1_to_s64x1",
    "Verif.Props.written_s64x2_imm_to_s32x2",
    "Verif.Props.written_s64x2_imm_to_s64",
    "Verif.Props.written_s64x2_s32x2_to_s64x2",
    "Verif.Props.written_s64x2_s32x2_s32x2_to_s64x2",
    "Verif.Props.written_s64x2_s32x4_to_s64x2",
    "Verif.Props.written_s64x2_s64x2_to_s32x2",
    "Verif.Props.written_s64x2_s64x2_to_s64x2",
    "Verif.Props.written_s64x2_to_u32x4",
    "Verif.Props.written_s64x2_to_u8x16",
    "Verif.Props.written_s8_to_s8x16",
    "Verif.Props.written_s8_to_s8x8",
    "Verif.Props.written_ps8_s8x16_to_mem",
    "Verif.Props.written_ps8_s8x16x2_to_mem",
    "Verif.Props.written_ps8_s8x16x3_to_mem",
    "Verif.Props.written_ps8_s8x16x4_to_mem",
    "Verif.Props.written_ps8_s8x8_to_mem",
    "Verif.Props.written_ps8_s8x8_imm_to_s8x8",
    "Verif.Props.written_ps8_s8x8x2_to_mem",
    "Verif.Props.written_ps8_s8x8x3_to_mem",
    "Verif.Props.written_ps8_s8x8x4_to_mem",
    "Verif.Props.written_ps8_to_s8x16",
    "Verif.Props.written_ps8_to_s8x16x2",
    "Verif.Props.written_ps8_to_s8x16x3",
    "Verif.Props.written_ps8_to_s8x16x4",
    "Verif.Props.written_ps8_to_s8x8",
    "Verif.Props.written_ps8_to_s8x8x2",
    "Verif.Props.written_ps8_to_s8x8x3",
    "Verif.Props.written_ps8_to_s8x8x4",
    "Verif.Props.written_s8x16_imm_to_s8",
    "Verif.Props.written_s8x16_s8x16_to_s16x8",
    "Verif.Props.written_s8x16_s8x16_to_s8x16",
    "Verif.Props.written_s8x16_s8x16_s8x16_to_s8x16",
    "Verif.Props.written_s8x16_to_s8x16",
    "Verif.Props.written_s8x16_to_s8x8",
    "Verif.Props.written_s8x16_to_u32x4",
    "Verif.Props.written_s8x16_to_u8x16",
    "Verif.Props.written_s8x8_s16x8_s16x8_to_s8x16",
    "Verif.Props.written_s8x8_s8x8_to_s16x8",
    "Verif.Props.written_s8x8_s8x8_to_s8x16",
    "Verif.Props.written_s8x8_s8x8_to_s8x8",
    "Verif.Props.written_s8x8_s8x8_to_s8x8x2",
    "Verif.Props.written_s8x8_to_s16x8",
    "Verif.Props.written_s8x8_to_s8x8",
    "Verif.Props.written_s8x8_to_u8x8",
    "Verif.Props.written_u16_to_u16x4",
    "Verif.Props.written_u16_to_u16x8",
    "Verif.Props.written_pu16_u16x4_to_mem",
    "Verif.Props.written_pu16_u16x4x2_to_mem",
    "Verif.Props.written_pu16_u16x4x3_to_mem",
    "Verif.Props.written_pu16_u16x4x4_to_mem",
    "Verif.Props.written_pu16_u16x8_to_mem",
    "Verif.Props.written_pu16_u16x8x2_to_mem",
    "Verif.Props.written_pu16_u16x8x3_to_mem",
    "Verif.Props.written_pu16_u16x8x4_to_mem",
    "Verif.Props.written_pu16_to_u16x4",
    "Verif.Props.written_pu16_to_u16x4x2",
    "Verif.Props.written_pu16_to_u16x4x3",
    "Verif.Props.written_pu16_to_u16x4x4",
    "Verif.Props.written_pu16_to_u16x8",
    "Verif.Props.written_pu16_to_u16x8x2",
    "Verif.Props.written_pu16_to_u16x8x3",
    "Verif.Props.written_pu16_to_u16x8x4",
    "Verif.Props.written_u16x4_imm_to_u16x4",
    "Verif.Props.written_u16x4_u16_to_u16x4",
    "Verif.Props.written_u16x4_u16_to_u32x4",
    "Verif.Props.written_u16x4_u16x4_to_u16x4",
    "Verif.Props.written_u16x4_u16x4_to_u16x4x2",
    "Verif.Props.written_u16x4_u16x4_to_u16x8",
    "Verif.Props.written_u16x4_u16x4_to_u32x4",
    "Verif.Props.written_u16x4_u16x4_imm_to_u16x4",
    "Verif.Props.written_u16x4_u32x4_u32x4_to_u16x8",
    "Verif.Props.written_u16x4_to_u16x4",
    "Verif.Props.written_u16x4_to_u32x2",
    "Verif.Props.written_u16x4_to_u32x4",
    "Verif.Props.written_u16x8_imm_to_u16",
    "Verif.Props.written_u16x8_imm_to_u8x8",
    "Verif.Props.written_u16x8_u16_to_u16x8",
    "Verif.Props.written_u16x8_u16x8_to_u16x8",
    "Verif.Props.written_u16x8_u16x8_to_u16x8x2",
    "Verif.Props.written_u16x8_u16x8_to_u32x4",
    "Verif.Props.written_u16x8_u16x8_to_u8x8",
    "Verif.Props.written_u16x8_u16x8_imm_to_u16x8",
    "Verif.Props.written_u16x8_u16x8_u16x8_to_u16x8",
    "Verif.Props.written_u16x8_u8x16_to_u16x8",
    "Verif.Props.written_u16x8_u8x8_to_u16x8",
    "Verif.Props.written_u16x8_u8x8_u8x8_to_u16x8",
    "Verif.Props.written_u16x8_to_s16x8",
    "Verif.Props.written_u16x8_to_u16x4",
    "Verif.Props.written_u16x8_to_u16x8",
    "Verif.Props.written_u16x8_to_u32x4",
    "Verif.Props.written_u16x8_to_u8x16",
    "Verif.Props.written_u16x8_to_u8x8",
    "Verif.Props.written_u32_to_u32x2",
    "Verif.Props.written_u32_to_u32x4",
    "Verif.Props.written_pu32_u32x2_to_mem",
    "Verif.Props.written_pu32_u32x2x2_to_mem",
    "Verif.Props.written_pu32_u32x2x3_to_mem",
    "Verif.Props.written_pu32_u32x2x4_to_mem",
    "Verif.Props.written_pu32_u32x4_to_mem",
    "Verif.Props.written_pu32_u32x4x2_to_mem",
    "Verif.Props.written_pu32_u32x4x3_to_mem",
    "Verif.Props.written_pu32_u32x4x4_to_mem",
    "Verif.Props.written_pu32_to_u32x2",
    "Verif.Props.written_pu32_to_u32x2x2",
    "Verif.Props.written_pu32_to_u32x2x3",
    "Verif.Props.written_pu32_to_u32x2x4",
    "Verif.Props.written_pu32_to_u32x4",
    "Verif.Props.written_pu32_to_u32x4x2",
    "Verif.Props.written_pu32_to_u32x4x3",
    "Verif.Props.written_pu32_to_u32x4x4",
    "Verif.Props.written_u32x2_u32_to_u32x2",
    "Verif.Props.written_u32x2_u32_to_u64x2",
    "Verif.Props.written_u32x2_u32x2_to_u32x2",
    "Verif.Props.written_u32x2_u32x2_to_u32x2x2",
    "Verif.Props.written_u32x2_u32x2_to_u32x4",
    "Verif.Props.written_u32x2_u32x2_to_u64x2",
    "Verif.Props.written_u32x2_u64x2_u64x2_to_u32x4",
    "Verif.Props.written_u32x2_to_u32x2",
    "Verif.Props.written_u32x2_to_u64x2",
    "Verif.Props.written_u32x2_to_u8x8",
    "Verif.Props.written_u32x4_f32x4_f32x4_to_f32x4",
    "Verif.Props.written_u32x4_imm_to_u16x4",
    "Verif.Props.written_u32x4_imm_to_u32",
    "Verif.Props.written_u32x4_u16x4_to_u32x4",
    "Verif.Props.written_u32x4_u16x4_u16x4_to_u32x4",
    "Verif.Props.written_u32x4_u16x8_to_u32x4",
    "Verif.Props.written_u32x4_u32_to_u32x4",
    "Verif.Props.written_u32x4_u32x2_to_u64x2",
    "Verif.Props.written_u32x4_u32x4_to_u16x4",
    "Verif.Props.written_u32x4_u32x4_to_u32x4",
    "Verif.Props.written_u32x4_u32x4_to_u32x4x2",
    "Verif.Props.written_u32x4_u32x4_to_u64x2",
    "Verif.Props.written_u32x4_u32x4_u32x4_to_u32x4",
    "Verif.Props.written_u32x4_to_u16x4",
    "Verif.Props.written_u32x4_to_u32x2",
    "Verif.Props.written_u32x4_to_u32x4",
    "Verif.Props.written_u32x4_to_u8x16",
    "Verif.Props.written_u64_to_u64x1",
    "Verif.Props.written_pu64_u64x1_to_mem",
    "Verif.Props.written_pu64_u64x2_to_mem",
    "Verif.Props.written_pu64_to_u64x1",
    "Verif.Props.written_pu64_to_u64x2",
    "Verif.Props.written_u64x1_u64x1_to_u64x1",
    "Verif.Props.written_u64x2_imm_to_u32x2",
    "Verif.Props.written_u64x2_imm_to_u64",
    "Verif.Props.written_u64x2_u32x2_to_u64x2",
    "Verif.Props.written_u64x2_u32x2_u32x2_to_u64x2",
    "Verif.Props.written_u64x2_u32x4_to_u64x2",
    "Verif.Props.written_u64x2_u64x2_to_u32x2",
    "Verif.Props.written_u64x2_u64x2_to_u64x2",
    "Verif.Props.written_u64x2_to_u32x4",
    "Verif.Props.written_u64x2_to_u8x16",
    "Verif.Props.written_u8_to_u8x16",
    "Verif.Props.written_u8_to_u8x8",
    "Verif.Props.written_pu8_u8x16_to_mem",
    "Verif.Props.written_pu8_u8x16x2_to_mem",
    "Verif.Props.written_pu8_u8x16x3_to_mem",
    "Verif.Props.written_pu8_u8x16x4_to_mem",
    "Verif.Props.written_pu8_u8x8_to_mem",
    "Verif.Props.written_pu8_u8x8_imm_to_u8x8",
    "Verif.Props.written_pu8_u8x8x2_to_mem",
    "Verif.Props.written_pu8_u8x8x2_imm_to_u8x8x2",
    "Verif.Props.written_pu8_u8x8x3_to_mem",
    "Verif.Props.written_pu8_u8x8x3_imm_to_u8x8x3",
    "Verif.Props.written_pu8_u8x8x4_to_mem",
    "Verif.Props.written_pu8_u8x8x4_imm_to_u8x8x4",
    "Verif.Props.written_pu8_to_u8x16",
    "Verif.Props.written_pu8_to_u8x16x2",
    "Verif.Props.written_pu8_to_u8x16x3",
    "Verif.Props.written_pu8_to_u8x16x4",
    "Verif.Props.written_pu8_to_u8x8",
    "Verif.Props.written_pu8_to_u8x8x2",
    "Verif.Props.written_pu8_to_u8x8x3",
    "Verif.Props.written_pu8_to_u8x8x4",
    "Verif.Props.written_u8x16_imm_to_u8",
    "Verif.Props.written_u8x16_u8x16_to_u16x8",
    "Verif.Props.written_u8x16_u8x16_to_u8x16",
    "Verif.Props.written_u8x16_u8x16_u8x16_to_u8x16",
    "Verif.Props.written_u8x16_u8x8_to_u8x8",
    "Verif.Props.written_u8x16_to_u16x8",
    "Verif.Props.written_u8x16_to_u32x4",
    "Verif.Props.written_u8x16_to_u8x16",
    "Verif.Props.written_u8x16_to_u8x8",
    "Verif.Props.written_u8x8_imm_to_u16x8",
    "Verif.Props.written_u8x8_u16x8_u16x8_to_u8x16",
    "Verif.Props.written_u8x8_u8x8_to_u16x8",
    "Verif.Props.written_u8x8_u8x8_to_u8x16",
    "Verif.Props.written_u8x8_u8x8_to_u8x8",
    "Verif.Props.written_u8x8_u8x8_to_u8x8x2",
    "Verif.Props.written_u8x8_u8x8_imm_to_u8x8",
    "Verif.Props.written_u8x8_to_s8x8",
    "Verif.Props.written_u8x8_to_u16x4",
    "Verif.Props.written_u8x8_to_u16x8",
    "Verif.Props.written_u8x8_to_u32x2",
    "Verif.Props.written_u8x8_to_u8x8",
    "Verif.Props.written_u8x8x2_u8x8_to_u8x8",
    "Verif.Props.written_u8x8x4_u8x8_to_u8x8",
    "Verif.Props.written_vrecpeq_f32",
    "Verif.Props.vrev64q_s8_partial",
    "Verif.Props.vrev64q_s8_wrong",
    "Verif.Props.vrev64q_s16_partial",
    "Verif.Props.vrev64q_s16_wrong",
    "Verif.Props.vqshrun_n_s32_wrong",
    "Verif.Props.vqshrun_n_s32_partial",
    "Verif.Props.vqshrun_n_s64_wrong",
    "Verif.Props.vqshrun_n_s64_partial"
   ],
   "note": "Proved for 533 of the 537 modelled functions, for every operand, immediate and memory. False of vrev64q_s8/s16 and vqshrun_n_s32/s64 (`_wrong`)."
  },
  {
   "property": "C61",
   "status": "partial",
   "theorems": [
    "Verif.Props.vaddl_high_s8_factor",
    "Verif.Props.vaddw_s8_factor",
    "Verif.Props.vaddw_high_s8_factor",
    "Verif.Props.vsubw_s8_factor",
    "Verif.Props.vsubl_s8_factor",
    "Verif.Props.vmull_s8_factor",
    "Verif.Props.vmlal_s8_factor",
    "Verif.Props.vmlsl_s8_factor",
    "Verif.Props.vaddl_high_s16_factor",
    "Verif.Props.vaddw_s16_factor",
    "Verif.Props.vaddw_high_s16_factor",
    "Verif.Props.vsubw_s16_factor",
    "Verif.Props.vsubl_s16_factor",
    "Verif.Props.vmull_s16_factor",
    "Verif.Props.vmlal_s16_factor",
    "Verif.Props.vmlsl_s16_factor",
    "Verif.Props.vaddl_high_s32_factor_wrong",
    "Verif.Props.vaddw_s32_factor",
    "Verif.Props.vaddw_high_s32_factor",
    "Verif.Props.vsubw_s32_factor",
    "Verif.Props.vsubl_s32_factor",
    "Verif.Props.vmlal_s32_factor",
    "Verif.Props.vmlsl_s32_factor",
    "Verif.Props.vaddl_u8_factor",
    "Verif.Props.vaddl_high_u8_factor",
    "Verif.Props.vaddw_u8_factor",
    "Verif.Props.vaddw_high_u8_factor",
    "Verif.Props.vsubw_u8_factor",
    "Verif.Props.vsubl_u8_factor",
    "Verif.Props.vmull_u8_factor",
    "Verif.Props.vmlal_u8_factor",
    "Verif.Props.vmlsl_u8_factor",
    "Verif.Props.vaddl_high_u16_factor",
    "Verif.Props.vaddw_u16_factor",
    "Verif.Props.vaddw_high_u16_factor",
    "Verif.Props.vsubw_u16_factor",
    "Verif.Props.vsubl_u16_factor",
    "Verif.Props.vmull_u16_factor_wrapv",
    "Verif.Props.vmull_u16_factor_partial",
    "Verif.Props.vmlal_u16_factor",
    "Verif.Props.vmlsl_u16_factor",
    "Verif.Props.vaddl_high_u32_factor_wrong",
    "Verif.Props.vaddw_u32_factor",
    "Verif.Props.vaddw_high_u32_factor",
    "Verif.Props.vsubw_u32_factor",
    "Verif.Props.vsubl_u32_factor",
    "Verif.Props.vmlal_u32_factor",
    "Verif.Props.vmlsl_u32_factor"
   ],
   "note": "Proved as an equality of outcomes (same register, or undefined in the same cases) for every widening intrinsic of the code except: vmull_u16 (in C++11 only when every product is below 2^31, otherwise with -fwrapv), vaddl_high_s32/u32 (refuted, `_factor_wrong`). vmull_s32/u32 have no vmulq_s64/u64 in the code to factor through."
  },
  {
   "property": "C62",
   "status": "proved",
   "theorems": [
    "Verif.Props.rev_unary_float32x2",
    "Verif.Props.rev_binary_float32x2",
    "Verif.Props.rev_unary_float32x4",
    "Verif.Props.rev_binary_float32x4",
    "Verif.Props.rev_ternary_float32x4",
    "Verif.Props.rev_unary_int16x4",
    "Verif.Props.rev_binary_int16x4",
    "Verif.Props.pair_binary_int16x4",
    "Verif.Props.rev_unary_int16x8",
    "Verif.Props.rev_binary_int16x8",
    "Verif.Props.pair_binary_int16x8",
    "Verif.Props.rev_ternary_int16x8",
    "Verif.Props.rev_unary_int32x2",
    "Verif.Props.rev_binary_int32x2",
    "Verif.Props.pair_binary_int32x2",
    "Verif.Props.rev_unary_int32x4",
    "Verif.Props.rev_binary_int32x4",
    "Verif.Props.rev_ternary_int32x4",
    "Verif.Props.rev_unary_int8x16",
    "Verif.Props.rev_binary_int8x16",
    "Verif.Props.rev_ternary_int8x16",
    "Verif.Props.rev_unary_int8x8",
    "Verif.Props.rev_binary_int8x8",
    "Verif.Props.pair_binary_int8x8",
    "Verif.Props.rev_unary_uint16x4",
    "Verif.Props.rev_binary_uint16x4",
    "Verif.Props.pair_binary_uint16x4",
    "Verif.Props.rev_unary_uint16x8",
    "Verif.Props.rev_binary_uint16x8",
    "Verif.Props.pair_binary_uint16x8",
    "Verif.Props.rev_ternary_uint16x8",
    "Verif.Props.rev_unary_uint32x2",
    "Verif.Props.rev_binary_uint32x2",
    "Verif.Props.pair_binary_uint32x2",
    "Verif.Props.rev_unary_uint32x4",
    "Verif.Props.rev_binary_uint32x4",
    "Verif.Props.pair_binary_uint32x4",
    "Verif.Props.rev_ternary_uint32x4",
    "Verif.Props.rev_unary_uint8x16",
    "Verif.Props.rev_binary_uint8x16",
    "Verif.Props.rev_ternary_uint8x16",
    "Verif.Props.rev_unary_uint8x8",
    "Verif.Props.rev_binary_uint8x8",
    "Verif.Props.pair_binary_uint8x8"
   ],
   "note": "370 pairs of an operation and a permutation. vrev32_s8 and vrev64q_s8/s16 never return a register (C40), so they are not among the permutations."
  },
  {
   "property": "C63",
   "status": "partial",
   "theorems": [
    "Verif.Props.vadd_u8_comm",
    "Verif.Props.vadd_u8_assoc",
    "Verif.Props.vsub_u8_vadd_u8",
    "Verif.Props.vadd_u8_vsub_u8",
    "Verif.Props.vadd_u8_zero",
    "Verif.Props.vsub_u8_self",
    "Verif.Props.vmul_u8_comm",
    "Verif.Props.vmul_u8_assoc",
    "Verif.Props.vmul_u8_vadd_u8",
    "Verif.Props.vmul_u8_vsub_u8",
    "Verif.Props.vmul_u8_one",
    "Verif.Props.vadd_u16_comm",
    "Verif.Props.vadd_u16_assoc",
    "Verif.Props.vsub_u16_vadd_u16",
    "Verif.Props.vadd_u16_vsub_u16",
    "Verif.Props.vadd_u16_zero",
    "Verif.Props.vsub_u16_self",
    "Verif.Props.vmul_u16_comm",
    "Verif.Props.vmul_u16_assoc",
    "Verif.Props.vmul_u16_vadd_u16",
    "Verif.Props.vmul_u16_vsub_u16",
    "Verif.Props.vmul_u16_one",
    "Verif.Props.vadd_u32_comm",
    "Verif.Props.vadd_u32_assoc",
    "Verif.Props.vsub_u32_vadd_u32",
    "Verif.Props.vadd_u32_vsub_u32",
    "Verif.Props.vadd_u32_zero",
    "Verif.Props.vsub_u32_self",
    "Verif.Props.vmul_u32_comm",
    "Verif.Props.vmul_u32_assoc",
    "Verif.Props.vmul_u32_vadd_u32",
    "Verif.Props.vmul_u32_vsub_u32",
    "Verif.Props.vmul_u32_one",
    "Verif.Props.vadd_u64_comm",
    "Verif.Props.vadd_u64_assoc",
    "Verif.Props.vsub_u64_vadd_u64",
    "Verif.Props.vadd_u64_vsub_u64",
    "Verif.Props.vadd_u64_zero",
    "Verif.Props.vsub_u64_self",
    "Verif.Props.vadd_s8_comm",
    "Verif.Props.vadd_s8_assoc",
    "Verif.Props.vsub_s8_vadd_s8",
    "Verif.Props.vadd_s8_vsub_s8",
    "Verif.Props.vadd_s8_zero",
    "Verif.Props.vsub_s8_self",
    "Verif.Props.vmul_s8_comm",
    "Verif.Props.vmul_s8_assoc",
    "Verif.Props.vmul_s8_vadd_s8",
    "Verif.Props.vmul_s8_vsub_s8",
    "Verif.Props.vmul_s8_one",
    "Verif.Props.vadd_s16_comm",
    "Verif.Props.vadd_s16_assoc",
    "Verif.Props.vsub_s16_vadd_s16",
    "Verif.Props.vadd_s16_vsub_s16",
    "Verif.Props.vadd_s16_zero",
    "Verif.Props.vsub_s16_self",
    "Verif.Props.vmul_s16_comm",
    "Verif.Props.vmul_s16_assoc",
    "Verif.Props.vmul_s16_vadd_s16",
    "Verif.Props.vmul_s16_vsub_s16",
    "Verif.Props.vmul_s16_one",
    "Verif.Props.vadd_s32_comm",
    "Verif.Props.vadd_s32_assoc",
    "Verif.Props.vsub_s32_vadd_s32",
    "Verif.Props.vadd_s32_vsub_s32",
    "Verif.Props.vadd_s32_zero",
    "Verif.Props.vsub_s32_self",
    "Verif.Props.vmul_s32_comm",
    "Verif.Props.vmul_s32_assoc",
    "Verif.Props.vmul_s32_vadd_s32",
    "Verif.Props.vmul_s32_vsub_s32",
    "Verif.Props.vmul_s32_one",
    "Verif.Props.vadd_s64_comm",
    "Verif.Props.vadd_s64_assoc",
    "Verif.Props.vsub_s64_vadd_s64",
    "Verif.Props.vadd_s64_vsub_s64",
    "Verif.Props.vadd_s64_zero",
    "Verif.Props.vsub_s64_self",
    "Verif.Props.vaddq_u8_comm",
    "Verif.Props.vaddq_u8_assoc",
    "Verif.Props.vsubq_u8_vaddq_u8",
    "Verif.Props.vaddq_u8_vsubq_u8",
    "Verif.Props.vaddq_u8_zero",
    "Verif.Props.vsubq_u8_self",
    "Verif.Props.vmulq_u8_comm",
    "Verif.Props.vmulq_u8_assoc",
    "Verif.Props.vmulq_u8_vaddq_u8",
    "Verif.Props.vmulq_u8_vsubq_u8",
    "Verif.Props.vmulq_u8_one",
    "Verif.Props.vaddq_u16_comm",
    "Verif.Props.vaddq_u16_assoc",
    "Verif.Props.vsubq_u16_vaddq_u16",
    "Verif.Props.vaddq_u16_vsubq_u16",
    "Verif.Props.vaddq_u16_zero",
    "Verif.Props.vsubq_u16_self",
    "Verif.Props.vmulq_u16_comm",
    "Verif.Props.vmulq_u16_assoc",
    "Verif.Props.vmulq_u16_vaddq_u16",
    "Verif.Props.vmulq_u16_vsubq_u16",
    "Verif.Props.vmulq_u16_one",
    "Verif.Props.vaddq_u32_comm",
    "Verif.Props.vaddq_u32_assoc",
    "Verif.Props.vsubq_u32_vaddq_u32",
    "Verif.Props.vaddq_u32_vsubq_u32",
    "Verif.Props.vaddq_u32_zero",
    "Verif.Props.vsubq_u32_self",
    "Verif.Props.vmulq_u32_comm",
    "Verif.Props.vmulq_u32_assoc",
    "Verif.Props.vmulq_u32_vaddq_u32",
    "Verif.Props.vmulq_u32_vsubq_u32",
    "Verif.Props.vmulq_u32_one",
    "Verif.Props.vaddq_u64_comm",
    "Verif.Props.vaddq_u64_assoc",
    "Verif.Props.vsubq_u64_vaddq_u64",
    "Verif.Props.vaddq_u64_vsubq_u64",
    "Verif.Props.vaddq_s8_comm",
    "Verif.Props.vaddq_s8_assoc",
    "Verif.Props.vsubq_s8_vaddq_s8",
    "Verif.Props.vaddq_s8_vsubq_s8",
    "Verif.Props.vaddq_s8_zero",
    "Verif.Props.vsubq_s8_self",
    "Verif.Props.vmulq_s8_comm",
    "Verif.Props.vmulq_s8_assoc",
    "Verif.Props.vmulq_s8_vaddq_s8",
    "Verif.Props.vmulq_s8_vsubq_s8",
    "Verif.Props.vmulq_s8_one",
    "Verif.Props.vaddq_s16_comm",
    "Verif.Props.vaddq_s16_assoc",
    "Verif.Props.vsubq_s16_vaddq_s16",
    "Verif.Props.vaddq_s16_vsubq_s16",
    "Verif.Props.vaddq_s16_zero",
    "Verif.Props.vsubq_s16_self",
    "Verif.Props.vmulq_s16_comm",
    "Verif.Props.vmulq_s16_assoc",
    "Verif.Props.vmulq_s16_vaddq_s16",
    "Verif.Props.vmulq_s16_vsubq_s16",
    "Verif.Props.vmulq_s16_one",
    "Verif.Props.vaddq_s32_comm",
    "Verif.Props.vaddq_s32_assoc",
    "Verif.Props.vsubq_s32_vaddq_s32",
    "Verif.Props.vaddq_s32_vsubq_s32",
    "Verif.Props.vaddq_s32_zero",
    "Verif.Props.vsubq_s32_self",
    "Verif.Props.vmulq_s32_comm",
    "Verif.Props.vmulq_s32_assoc",
    "Verif.Props.vmulq_s32_vaddq_s32",
    "Verif.Props.vmulq_s32_vsubq_s32",
    "Verif.Props.vmulq_s32_one",
    "Verif.Props.vaddq_s64_comm",
    "Verif.Props.vaddq_s64_assoc",
    "Verif.Props.vsubq_s64_vaddq_s64",
    "Verif.Props.vaddq_s64_vsubq_s64",
    "Verif.Props.vmlaq_u8_factor",
    "Verif.Props.vmlaq_u16_factor_wrapv",
    "Verif.Props.vmlaq_u16_factor_partial",
    "Verif.Props.vmlaq_u32_factor",
    "Verif.Props.vmlaq_s8_factor",
    "Verif.Props.vmlaq_s16_factor",
    "Verif.Props.vmlaq_s32_factor"
   ],
   "note": "Every law for u8, u32, u64 (which has no vmul) and the signed 8/16-bit lanes; for vmul_u16 associativity and distributivity need -fwrapv, because in C++11 the product of two uint16_t overflows int (C23). Laws for s32/s64 under -fwrapv are included."
  },
  {
   "property": "C64",
   "status": "proved",
   "theorems": [
    "Verif.Props.vqsub_u8_mono",
    "Verif.Props.vqsub_u8_eq_vsub_u8",
    "Verif.Props.vqadd_u8_mono",
    "Verif.Props.vqadd_u8_eq_vadd_u8",
    "Verif.Props.vqsub_u8_self",
    "Verif.Props.vqsub_u8_eq_zero_iff",
    "Verif.Props.vqsub_u8_all_zero_iff",
    "Verif.Props.vqsub_u8_vadd_u8",
    "Verif.Props.vqadd_u8_comm",
    "Verif.Props.vqadd_u8_assoc",
    "Verif.Props.vqadd_u8_vqsub_u8",
    "Verif.Props.vqsub_u16_mono",
    "Verif.Props.vqsub_u16_eq_vsub_u16",
    "Verif.Props.vqsub_u16_self",
    "Verif.Props.vqsub_u16_eq_zero_iff",
    "Verif.Props.vqsub_u16_all_zero_iff",
    "Verif.Props.vqsub_u16_vadd_u16",
    "Verif.Props.vqsub_u32_mono",
    "Verif.Props.vqsub_u32_eq_vsub_u32",
    "Verif.Props.vqsub_u32_self",
    "Verif.Props.vqsub_u32_eq_zero_iff",
    "Verif.Props.vqsub_u32_all_zero_iff",
    "Verif.Props.vqsub_u32_vadd_u32",
    "Verif.Props.vqsub_s8_mono",
    "Verif.Props.vqsub_s8_eq_vsub_s8",
    "Verif.Props.vqsub_s8_self",
    "Verif.Props.vqsub_s16_mono",
    "Verif.Props.vqsub_s16_eq_vsub_s16",
    "Verif.Props.vqsub_s16_self",
    "Verif.Props.vqsub_s32_mono",
    "Verif.Props.vqsub_s32_eq_vsub_s32",
    "Verif.Props.vqsub_s32_self",
    "Verif.Props.vqsubq_u8_mono",
    "Verif.Props.vqsubq_u8_eq_vsubq_u8",
    "Verif.Props.vqaddq_u8_mono",
    "Verif.Props.vqaddq_u8_eq_vaddq_u8",
    "Verif.Props.vqsubq_u8_self",
    "Verif.Props.vqsubq_u8_eq_zero_iff",
    "Verif.Props.vqsubq_u8_all_zero_iff",
    "Verif.Props.vqsubq_u8_vaddq_u8",
    "Verif.Props.vqaddq_u8_comm",
    "Verif.Props.vqaddq_u8_assoc",
    "Verif.Props.vqaddq_u8_vqsubq_u8",
    "Verif.Props.vqsubq_u16_mono",
    "Verif.Props.vqsubq_u16_eq_vsubq_u16",
    "Verif.Props.vqsubq_u16_self",
    "Verif.Props.vqsubq_u16_eq_zero_iff",
    "Verif.Props.vqsubq_u16_all_zero_iff",
    "Verif.Props.vqsubq_u16_vaddq_u16",
    "Verif.Props.vqsubq_u32_mono",
    "Verif.Props.vqsubq_u32_eq_vsubq_u32",
    "Verif.Props.vqsubq_u32_self",
    "Verif.Props.vqsubq_u32_eq_zero_iff",
    "Verif.Props.vqsubq_u32_all_zero_iff",
    "Verif.Props.vqsubq_u32_vaddq_u32",
    "Verif.Props.vqsubq_s8_mono",
    "Verif.Props.vqsubq_s8_eq_vsubq_s8",
    "Verif.Props.vqsubq_s8_self",
    "Verif.Props.vqsubq_s16_mono",
    "Verif.Props.vqsubq_s16_eq_vsubq_s16",
    "Verif.Props.vqsubq_s16_self",
    "Verif.Props.vqsubq_s32_mono",
    "Verif.Props.vqsubq_s32_eq_vsubq_s32",
    "Verif.Props.vqsubq_s32_self"
   ],
   "note": ""
  },
  {
   "property": "C65",
   "status": "partial",
   "theorems": [
    "Verif.Props.header_consistent",
    "Verif.Props.defined_declared",
    "Verif.Props.defined_distinct",
    "Verif.Props.declaredOnce_spec",
    "Verif.Props.missing_spec",
    "Verif.Props.link_counts",
    "Verif.Props.link_coverage_wrong",
    "Verif.Props.header_read",
    "Verif.Props.header_types",
    "Verif.Props.header_widths",
    "Verif.Props.defined_read"
   ],
   "note": "False of the code (`link_coverage_wrong`): 1422 of the 1944 declared functions have no definition (`missing_spec`, `link_counts`). Proved, from the text of neon_sim.h and the texts of the definitions: which of the 539 free functions match a declaration (522) and which do not (17, `strays`; 8 of them are not declared under that name, the others have other parameter or result types); that the header is consistent; that its type names mean what the model takes them to mean."
  },
  {
   "property": "C66",
   "status": "proved",
   "theorems": [
    "Verif.Props.newton_step",
    "Verif.Props.recip_one_step",
    "Verif.Props.recip_two_steps"
   ],
   "note": ""
  },
  {
   "property": "C67",
   "status": "proved",
   "theorems": [
    "Verif.Props.stream_binary_float32x4",
    "Verif.Props.stream_binary_float32x4_uint32x4",
    "Verif.Props.stream_unary_int16x4",
    "Verif.Props.stream_binary_int16x4",
    "Verif.Props.stream_unary_int16x4_int32x4",
    "Verif.Props.stream_binary_int16x4_int32x4",
    "Verif.Props.stream_unary_int16x8",
    "Verif.Props.stream_binary_int16x8",
    "Verif.Props.stream_binary_int16x8_int8x8",
    "Verif.Props.stream_unary_int16x8_uint8x8",
    "Verif.Props.stream_unary_int32x2",
    "Verif.Props.stream_binary_int32x2",
    "Verif.Props.stream_binary_int32x2_checked",
    "Verif.Props.stream_unary_int32x2_int64x2",
    "Verif.Props.stream_binary_int32x2_int64x2_checked",
    "Verif.Props.stream_unary_int32x4_float32x4",
    "Verif.Props.stream_unary_int32x4_int16x4",
    "Verif.Props.stream_binary_int32x4_int16x4_checked",
    "Verif.Props.stream_unary_int32x4",
    "Verif.Props.stream_binary_int32x4",
    "Verif.Props.stream_binary_int32x4_checked",
    "Verif.Props.stream_binary_int64x1",
    "Verif.Props.stream_binary_int64x1_checked",
    "Verif.Props.stream_binary_int64x2_int32x2_checked",
    "Verif.Props.stream_binary_int64x2",
    "Verif.Props.stream_binary_int64x2_checked",
    "Verif.Props.stream_unary_int8x16",
    "Verif.Props.stream_binary_int8x16",
    "Verif.Props.stream_unary_int8x8_int16x8",
    "Verif.Props.stream_binary_int8x8_int16x8",
    "Verif.Props.stream_unary_int8x8",
    "Verif.Props.stream_binary_int8x8",
    "Verif.Props.stream_unary_uint16x4",
    "Verif.Props.stream_binary_uint16x4",
    "Verif.Props.stream_binary_uint16x4_checked",
    "Verif.Props.stream_unary_uint16x4_uint32x4",
    "Verif.Props.stream_binary_uint16x4_uint32x4",
    "Verif.Props.stream_binary_uint16x4_uint32x4_checked",
    "Verif.Props.stream_unary_uint16x8",
    "Verif.Props.stream_binary_uint16x8",
    "Verif.Props.stream_binary_uint16x8_checked",
    "Verif.Props.stream_unary_uint16x8_uint8x8",
    "Verif.Props.stream_binary_uint16x8_uint8x8",
    "Verif.Props.stream_unary_uint32x2",
    "Verif.Props.stream_binary_uint32x2",
    "Verif.Props.stream_unary_uint32x2_uint64x2",
    "Verif.Props.stream_binary_uint32x2_uint64x2",
    "Verif.Props.stream_unary_uint32x4_uint16x4",
    "Verif.Props.stream_binary_uint32x4_uint16x4",
    "Verif.Props.stream_unary_uint32x4",
    "Verif.Props.stream_binary_uint32x4",
    "Verif.Props.stream_binary_uint64x1",
    "Verif.Props.stream_binary_uint64x2_uint32x2",
    "Verif.Props.stream_binary_uint64x2",
    "Verif.Props.stream_unary_uint8x16",
    "Verif.Props.stream_binary_uint8x16",
    "Verif.Props.stream_unary_uint8x8_uint16x8",
    "Verif.Props.stream_binary_uint8x8_uint16x8",
    "Verif.Props.stream_unary_uint8x8",
    "Verif.Props.stream_binary_uint8x8",
    "Verif.Props.fold_unary_float32x2",
    "Verif.Props.fold_unary_float32x4",
    "Verif.Props.fold_binary_float32x4",
    "Verif.Props.fold_unary_float64x1",
    "Verif.Props.fold_unary_int16x4",
    "Verif.Props.fold_unary_int16x8",
    "Verif.Props.fold_binary_int16x8",
    "Verif.Props.fold_unary_int32x2",
    "Verif.Props.fold_unary_int32x4",
    "Verif.Props.fold_unary_int64x1",
    "Verif.Props.fold_unary_int64x2",
    "Verif.Props.fold_unary_int8x16",
    "Verif.Props.fold_binary_int8x16",
    "Verif.Props.fold_unary_int16x8_int8x8",
    "Verif.Props.fold_binary_int16x8_int8x8",
    "Verif.Props.fold_unary_int8x8",
    "Verif.Props.fold_unary_uint16x4",
    "Verif.Props.fold_unary_uint32x4_uint16x4",
    "Verif.Props.fold_unary_uint16x8",
    "Verif.Props.fold_unary_uint32x2",
    "Verif.Props.fold_unary_uint64x2_uint32x2",
    "Verif.Props.fold_unary_uint32x4",
    "Verif.Props.fold_binary_uint32x4",
    "Verif.Props.fold_unary_uint64x1",
    "Verif.Props.fold_unary_uint64x2",
    "Verif.Props.fold_unary_uint8x16",
    "Verif.Props.fold_binary_uint8x16",
    "Verif.Props.fold_unary_uint16x8_uint8x8",
    "Verif.Props.fold_binary_uint16x8_uint8x8",
    "Verif.Props.fold_unary_uint8x8"
   ],
   "note": "325 intrinsics in 90 theorems; `stream_*_checked` for operations that may overflow (signed 32/64-bit, u16 products)."
  },
  {
   "property": "C68",
   "status": "proved",
   "theorems": [
    "Verif.Props.grey_image",
    "Verif.Props.swapRB_image",
    "Verif.Props.swapRB_twice",
    "Verif.Props.reverse_row",
    "Verif.Props.absDiff_spec",
    "Verif.Props.maxU8_spec",
    "Verif.Props.minU8_spec",
    "Verif.Props.transpose4_spec",
    "Verif.Props.transpose4_twice",
    "Verif.Props.sum_bytes",
    "Verif.Props.dot_bytes"
   ],
   "note": "The programs are in Verif/Props/Pipeline.lean."
  },
  {
   "property": "C69",
   "status": "proved",
   "theorems": [
    "Verif.Props.vsubn_s32_strict",
    "Verif.Props.vsubn_s64_strict",
    "Verif.Props.vrsubhn_s32_strict",
    "Verif.Props.vrsubhn_s64_strict",
    "Verif.Props.vhsub_s32_strict",
    "Verif.Props.vhsubq_s32_strict",
    "Verif.Props.vadd_s32_strict",
    "Verif.Props.vadd_s64_strict",
    "Verif.Props.vaddq_s32_strict",
    "Verif.Props.vaddq_s64_strict",
    "Verif.Props.vsub_s32_strict",
    "Verif.Props.vsub_s64_strict",
    "Verif.Props.vsubq_s32_strict",
    "Verif.Props.vsubq_s64_strict",
    "Verif.Props.vmul_s32_strict",
    "Verif.Props.vmulq_s32_strict",
    "Verif.Props.vmul_n_s32_strict",
    "Verif.Props.vmulq_n_s32_strict",
    "Verif.Props.vmull_s32_strict",
    "Verif.Props.vmull_n_s32_strict",
    "Verif.Props.vmlal_s16_strict",
    "Verif.Props.vmlal_s32_strict",
    "Verif.Props.vmlsl_s16_strict",
    "Verif.Props.vmlsl_s32_strict",
    "Verif.Props.vmlaq_s32_strict",
    "Verif.Props.vaddl_high_s32_strict",
    "Verif.Props.vaddw_s16_strict",
    "Verif.Props.vaddw_s32_strict",
    "Verif.Props.vaddw_high_s16_strict",
    "Verif.Props.vaddw_high_s32_strict",
    "Verif.Props.vsubw_s16_strict",
    "Verif.Props.vsubw_s32_strict"
   ],
   "note": ""
  },
  {
   "property": "C70",
   "status": "proved",
   "theorems": [
    "Verif.Props.vadd_s32_wrapv",
    "Verif.Props.vadd_s64_wrapv",
    "Verif.Props.vaddq_s32_wrapv",
    "Verif.Props.vaddq_s64_wrapv",
    "Verif.Props.vsub_s32_wrapv",
    "Verif.Props.vsub_s64_wrapv",
    "Verif.Props.vsubq_s32_wrapv",
    "Verif.Props.vsubq_s64_wrapv",
    "Verif.Props.vaddl_high_s32_wrapv",
    "Verif.Props.vaddw_s16_wrapv",
    "Verif.Props.vaddw_s32_wrapv",
    "Verif.Props.vaddw_high_s16_wrapv",
    "Verif.Props.vaddw_high_s32_wrapv",
    "Verif.Props.vsubw_s16_wrapv",
    "Verif.Props.vsubw_s32_wrapv",
    "Verif.Props.vaddhn_high_s32_wrapv",
    "Verif.Props.vaddhn_high_s64_wrapv",
    "Verif.Props.vsubn_s32_wrapv",
    "Verif.Props.vsubn_s64_wrapv",
    "Verif.Props.vrsubhn_s32_wrapv",
    "Verif.Props.vrsubhn_s64_wrapv",
    "Verif.Props.vhsub_s32_wrapv",
    "Verif.Props.vhsubq_s32_wrapv",
    "Verif.Props.vmul_s32_wrapv",
    "Verif.Props.vmul_u16_wrapv",
    "Verif.Props.vmulq_s32_wrapv",
    "Verif.Props.vmulq_u16_wrapv",
    "Verif.Props.vmul_n_s32_wrapv",
    "Verif.Props.vmul_n_u16_wrapv",
    "Verif.Props.vmulq_n_s32_wrapv",
    "Verif.Props.vmulq_n_u16_wrapv",
    "Verif.Props.vmull_s32_wrapv",
    "Verif.Props.vmull_u16_wrapv",
    "Verif.Props.vmull_n_s32_wrapv",
    "Verif.Props.vmull_n_u16_wrapv",
    "Verif.Props.vmlal_s16_wrapv",
    "Verif.Props.vmlal_s32_wrapv",
    "Verif.Props.vmlal_u16_wrapv",
    "Verif.Props.vmlsl_s16_wrapv",
    "Verif.Props.vmlsl_s32_wrapv",
    "Verif.Props.vmlsl_u16_wrapv",
    "Verif.Props.vmlaq_s32_wrapv",
    "Verif.Props.vmlaq_u16_wrapv",
    "Verif.Props.vshlq_n_s32_wrapv"
   ],
   "note": "The result is modulo the width of the C++ type in which the code computes; where that is not the lane type of the NEON intrinsic see C13, C18 and C24."
  },
  {
   "property": "C71",
   "status": "proved",
   "theorems": [
    "Verif.Props.vqsub_s64_partial",
    "Verif.Props.vqsub_s64_self",
    "Verif.Props.vqsub_s64_nonpos",
    "Verif.Props.vqsub_s64_nonneg",
    "Verif.Props.vqsub_s64_error",
    "Verif.Props.vqsubq_s64_partial",
    "Verif.Props.vqsubq_s64_self",
    "Verif.Props.vqsubq_s64_nonpos",
    "Verif.Props.vqsubq_s64_nonneg",
    "Verif.Props.vqsubq_s64_error",
    "Verif.Props.vqsub_u64_partial",
    "Verif.Props.vqsub_u64_self",
    "Verif.Props.vqsub_u64_zero",
    "Verif.Props.vqsub_u64_error",
    "Verif.Props.vqsubq_u64_partial",
    "Verif.Props.vqsubq_u64_self",
    "Verif.Props.vqsubq_u64_zero",
    "Verif.Props.vqsubq_u64_error"
   ],
   "note": "`_partial` (below 2^53) is partial with respect to C21."
  },
  {
   "property": "C72",
   "status": "partial",
   "theorems": [
    "Verif.Props.vrecpsq_f32_partial",
    "Verif.Props.vrecpsq_f32_wrong",
    "Verif.Props.vrecpsq_f32_fused_partial"
   ],
   "note": "The special case infinity * 0 gives NaN instead of 2.0 (`_wrong`); everything else is proved."
  },
  {
   "property": "C73",
   "status": "proved",
   "theorems": [
    "Verif.Props.newton_step",
    "Verif.Props.recip_two_steps"
   ],
   "note": ""
  },
  {
   "property": "C74",
   "status": "proved",
   "theorems": [
    "Verif.Props.stores_history",
    "Verif.Props.stores_frame",
    "Verif.Props.stores_frame_vst4_u8_wrong",
    "Verif.Props.stores_last_write_partial",
    "Verif.Props.stores_defined_partial"
   ],
   "note": "Every history of every store intrinsic (`stores_history`): `written` says which elements a call writes, `need` the room it needs. Both are as the architecture has them except for vst4_u8 and vst4_u32, which write other elements (C07); for histories without these two, `stores_last_write_partial` and `stores_defined_partial` say it in terms of the blocks of the architecture."
  },
  {
   "property": "C75",
   "status": "proved",
   "theorems": [
    "Verif.Props.vld1_u8_source",
    "Verif.Props.vld1_s8_source",
    "Verif.Props.vld1_u16_source",
    "Verif.Props.vld1_s16_source",
    "Verif.Props.vld1_u32_source",
    "Verif.Props.vld1_u64_source",
    "Verif.Props.vld1_s32_source",
    "Verif.Props.vld1_s64_source",
    "Verif.Props.vld1_f32_source",
    "Verif.Props.vld1_f64_source",
    "Verif.Props.vld1q_u8_source",
    "Verif.Props.vld1q_s8_source",
    "Verif.Props.vld1q_u16_source",
    "Verif.Props.vld1q_s16_source",
    "Verif.Props.vld1q_u32_source",
    "Verif.Props.vld1q_s32_source",
    "Verif.Props.vld1q_s64_source",
    "Verif.Props.vld1q_u64_source",
    "Verif.Props.vld1q_f32_source",
    "Verif.Props.vld2_u8_source",
    "Verif.Props.vld2_s8_source",
    "Verif.Props.vld2_u16_source",
    "Verif.Props.vld2_s16_source",
    "Verif.Props.vld2_u32_source",
    "Verif.Props.vld_s32_source",
    "Verif.Props.vld2_f32_source",
    "Verif.Props.vld2q_u8_source",
    "Verif.Props.vld2q_s8_source",
    "Verif.Props.vld2q_u16_source",
    "Verif.Props.vld2q_s16_source",
    "Verif.Props.vld2q_u32_source",
    "Verif.Props.vld2q_s32_source",
    "Verif.Props.vld3_u8_source",
    "Verif.Props.vld3_s8_source",
    "Verif.Props.vld3_u16_source",
    "Verif.Props.vld3_s16_source",
    "Verif.Props.vld3_u32_source",
    "Verif.Props.vld3_s32_source",
    "Verif.Props.vld3_f32_source",
    "Verif.Props.vld3q_u8_source",
    "Verif.Props.vld3q_s8_source",
    "Verif.Props.vld3q_u16_source",
    "Verif.Props.vld3q_s16_source",
    "Verif.Props.vld3q_u32_source",
    "Verif.Props.vld3q_s32_source",
    "Verif.Props.vld4_u8_source",
    "Verif.Props.vld4_s8_source",
    "Verif.Props.vld4_u16_source",
    "Verif.Props.vld4_s16_source",
    "Verif.Props.vld4_u32_source",
    "Verif.Props.vld4_s32_source",
    "Verif.Props.vld4_f32_source",
    "Verif.Props.vld4q_u8_source",
    "Verif.Props.vld4q_s8_source",
    "Verif.Props.vld4q_u16_source",
    "Verif.Props.vld4q_s16_source",
    "Verif.Props.vld4q_u32_source",
    "Verif.Props.vld4q_s32_source",
    "Verif.Props.vld1q_dup_f32_source",
    "Verif.Props.vld1_lane_s8_source",
    "Verif.Props.vld1_lane_u8_source",
    "Verif.Props.vld2_lane_u8_source",
    "Verif.Props.vld3_lane_u8_source",
    "Verif.Props.vld4_lane_u8_source",
    "Verif.Props.vst1_u8_source",
    "Verif.Props.vst1_s8_source",
    "Verif.Props.vst1_u16_source",
    "Verif.Props.vst1_s16_source",
    "Verif.Props.vst1_u32_source",
    "Verif.Props.vst1_s32_source",
    "Verif.Props.vst1_s64_source",
    "Verif.Props.vst1_u64_source",
    "Verif.Props.vst1q_u8_source",
    "Verif.Props.vst1q_s8_source",
    "Verif.Props.vst1q_u16_source",
    "Verif.Props.vst1q_s16_source",
    "Verif.Props.vst1q_u32_source",
    "Verif.Props.vst1q_s32_source",
    "Verif.Props.vst1q_s64_source",
    "Verif.Props.vst1q_u64_source",
    "Verif.Props.vst1q_f32_source",
    "Verif.Props.vst2_s8_source",
    "Verif.Props.vst2_s16_source",
    "Verif.Props.vst2_s32_source",
    "Verif.Props.vst2_u8_source",
    "Verif.Props.vst2_u16_source",
    "Verif.Props.vst2_u32_source",
    "Verif.Props.vst2q_s8_source",
    "Verif.Props.vst2q_s16_source",
    "Verif.Props.vst2q_s32_source",
    "Verif.Props.vst2q_u8_source",
    "Verif.Props.vst2q_u16_source",
    "Verif.Props.vst2q_u32_source",
    "Verif.Props.vst3_s8_source",
    "Verif.Props.vst3_s16_source",
    "Verif.Props.vst3_s32_source",
    "Verif.Props.vst3_u8_source",
    "Verif.Props.vst3_u16_source",
    "Verif.Props.vst3_u32_source",
    "Verif.Props.vst3q_s8_source",
    "Verif.Props.vst3q_s16_source",
    "Verif.Props.vst3q_s32_source",
    "Verif.Props.vst3q_u8_source",
    "Verif.Props.vst3q_u16_source",
    "Verif.Props.vst3q_u32_source",
    "Verif.Props.vst4_s8_source",
    "Verif.Props.vst4_s16_source",
    "Verif.Props.vst4_s32_source",
    "Verif.Props.vst4_u8_source",
    "Verif.Props.vst4_u16_source",
    "Verif.Props.vst4_u32_source",
    "Verif.Props.vst4q_s8_source",
    "Verif.Props.vst4q_s16_source",
    "Verif.Props.vst4q_s32_source",
    "Verif.Props.vst4q_u8_source",
    "Verif.Props.vst4q_u16_source",
    "Verif.Props.vst4q_u32_source",
    "Verif.Props.vst4q_lane_f32_source",
    "Verif.Props.vmaxq_s8_source",
    "Verif.Props.vmaxq_s16_source",
    "Verif.Props.vmaxq_s32_source",
    "Verif.Props.vmaxq_u8_source",
    "Verif.Props.vmaxq_u16_source",
    "Verif.Props.vmaxq_u32_source",
    "Verif.Props.vmaxq_f32_source",
    "Verif.Props.vadd_s8_source",
    "Verif.Props.vadd_s16_source",
    "Verif.Props.vadd_s32_source",
    "Verif.Props.vadd_s64_source",
    "Verif.Props.vadd_u8_source",
    "Verif.Props.vadd_u16_source",
    "Verif.Props.vadd_u32_source",
    "Verif.Props.vadd_u64_source",
    "Verif.Props.vaddl_u8_source",
    "Verif.Props.vaddw_s8_source",
    "Verif.Props.vaddw_s16_source",
    "Verif.Props.vaddw_s32_source",
    "Verif.Props.vaddw_u8_source",
    "Verif.Props.vaddw_u16_source",
    "Verif.Props.vaddw_u32_source",
    "Verif.Props.vaddw_high_s8_source",
    "Verif.Props.vaddw_high_s16_source",
    "Verif.Props.vaddw_high_s32_source",
    "Verif.Props.vaddw_high_u8_source",
    "Verif.Props.vaddw_high_u16_source",
    "Verif.Props.vaddw_high_u32_source",
    "Verif.Props.vaddhn_high_s16_source",
    "Verif.Props.vaddhn_high_s32_source",
    "Verif.Props.vaddhn_high_s64_source",
    "Verif.Props.vaddhn_high_u16_source",
    "Verif.Props.vaddhn_high_u32_source",
    "Verif.Props.vaddhn_high_u64_source",
    "Verif.Props.vaddq_s8_source",
    "Verif.Props.vaddq_s16_source",
    "Verif.Props.vaddq_s32_source",
    "Verif.Props.vaddq_s64_source",
    "Verif.Props.vaddq_u8_source",
    "Verif.Props.vaddq_u16_source",
    "Verif.Props.vaddq_u32_source",
    "Verif.Props.vaddq_f32_source",
    "Verif.Props.vaddq_u64_source",
    "Verif.Props.vqadd_u8_source",
    "Verif.Props.vaddl_high_s8_source",
    "Verif.Props.vaddl_high_s16_source",
    "Verif.Props.vaddl_high_s32_source",
    "Verif.Props.vaddl_high_u8_source",
    "Verif.Props.vaddl_high_u16_source",
    "Verif.Props.vaddl_high_u32_source",
    "Verif.Props.vqaddq_u8_source",
    "Verif.Props.vpaddl_u8_source",
    "Verif.Props.vpaddlq_u8_source",
    "Verif.Props.vpaddlq_u16_source",
    "Verif.Props.vsub_s8_source",
    "Verif.Props.vsub_s16_source",
    "Verif.Props.vsub_s32_source",
    "Verif.Props.vsub_s64_source",
    "Verif.Props.vsub_u8_source",
    "Verif.Props.vsub_u16_source",
    "Verif.Props.vsub_u32_source",
    "Verif.Props.vsub_u64_source",
    "Verif.Props.vsub_f32_source",
    "Verif.Props.vsub_f32_overload2_source",
    "Verif.Props.vsubq_s8_source",
    "Verif.Props.vsubq_s16_source",
    "Verif.Props.vsubq_s32_source",
    "Verif.Props.vsubq_s64_source",
    "Verif.Props.vsubq_u8_source",
    "Verif.Props.vsubq_u16_source",
    "Verif.Props.vsubq_u32_source",
    "Verif.Props.vsubq_u64_source",
    "Verif.Props.vsubq_f32_source",
    "Verif.Props.vsubhn_s16_source",
    "Verif.Props.vsubn_s32_source",
    "Verif.Props.vsubn_s64_source",
    "Verif.Props.vsubhn_u16_source",
    "Verif.Props.vsubn_u32_source",
    "Verif.Props.vsubn_u64_source",
    "Verif.Props.vhsub_s8_source",
    "Verif.Props.vhsub_s16_source",
    "Verif.Props.vhsub_s32_source",
    "Verif.Props.vhsub_u8_source",
    "Verif.Props.vhsub_u16_source",
    "Verif.Props.vhsub_u32_source",
    "Verif.Props.vhsubq_s8_source",
    "Verif.Props.vhsubq_s16_source",
    "Verif.Props.vhsubq_s32_source",
    "Verif.Props.vhsubq_u8_source",
    "Verif.Props.vhsubq_u16_source",
    "Verif.Props.vhsubq_u32_source",
    "Verif.Props.vqsub_s8_source",
    "Verif.Props.vqsub_s16_source",
    "Verif.Props.vqsub_s32_source",
    "Verif.Props.vqsub_s64_source",
    "Verif.Props.vsubl_s8_source",
    "Verif.Props.vsubl_s16_source",
    "Verif.Props.vsubl_s32_source",
    "Verif.Props.vsubl_u8_source",
    "Verif.Props.vsubl_u16_source",
    "Verif.Props.vsubl_u32_source",
    "Verif.Props.vsubw_s8_source",
    "Verif.Props.vsubw_s16_source",
    "Verif.Props.vsubw_s32_source",
    "Verif.Props.vsubw_u8_source",
    "Verif.Props.vsubw_u16_source",
    "Verif.Props.vsubw_u32_source",
    "Verif.Props.vqsub_u8_source",
    "Verif.Props.vqsub_u16_source",
    "Verif.Props.vqsub_u32_source",
    "Verif.Props.vqsub_u64_source",
    "Verif.Props.vqsubq_s8_source",
    "Verif.Props.vqsubq_s16_source",
    "Verif.Props.vqsubq_s32_source",
    "Verif.Props.vqsubq_s64_source",
    "Verif.Props.vqsubq_u8_source",
    "Verif.Props.vqsubq_u16_source",
    "Verif.Props.vqsubq_u32_source",
    "Verif.Props.vqsubq_u64_source",
    "Verif.Props.vrsubhn_s16_source",
    "Verif.Props.vrsubhn_s32_source",
    "Verif.Props.vrsubhn_s64_source",
    "Verif.Props.vrsubhn_u16_source",
    "Verif.Props.vrsubhn_u32_source",
    "Verif.Props.vrsubhn_u64_source",
    "Verif.Props.vmul_s8_source",
    "Verif.Props.vmul_s16_source",
    "Verif.Props.vmul_s32_source",
    "Verif.Props.vmul_u8_source",
    "Verif.Props.vmul_u16_source",
    "Verif.Props.vmul_u32_source",
    "Verif.Props.vmulq_s8_source",
    "Verif.Props.vmulq_s16_source",
    "Verif.Props.vmulq_s32_source",
    "Verif.Props.vmulq_u8_source",
    "Verif.Props.vmulq_u16_source",
    "Verif.Props.vmulq_u32_source",
    "Verif.Props.vmulq_f32_source",
    "Verif.Props.vmul_n_s16_source",
    "Verif.Props.vmul_n_s32_source",
    "Verif.Props.vmul_n_u16_source",
    "Verif.Props.vmul_n_u32_source",
    "Verif.Props.vmul_n_f32_source",
    "Verif.Props.vmul_n_f64_source",
    "Verif.Props.vmulq_n_s16_source",
    "Verif.Props.vmulq_n_s32_source",
    "Verif.Props.vmulq_n_u16_source",
    "Verif.Props.vmulq_n_u32_source",
    "Verif.Props.vmulq_n_f32_source",
    "Verif.Props.vmulq_n_f64_source",
    "Verif.Props.vmull_u8_source",
    "Verif.Props.vmull_u16_source",
    "Verif.Props.vmull_u32_source",
    "Verif.Props.vmull_s8_source",
    "Verif.Props.vmull_s16_source",
    "Verif.Props.vmull_s32_source",
    "Verif.Props.vmull_n_s16_source",
    "Verif.Props.vmull_n_s32_source",
    "Verif.Props.vmull_n_u16_source",
    "Verif.Props.vmull_n_u32_source",
    "Verif.Props.vqdmull_s16_source",
    "Verif.Props.vmlal_s8_source",
    "Verif.Props.vmlal_s16_source",
    "Verif.Props.vmlal_s32_source",
    "Verif.Props.vmlal_u8_source",
    "Verif.Props.vmlal_u16_source",
    "Verif.Props.vmlal_u32_source",
    "Verif.Props.vmlsl_s8_source",
    "Verif.Props.vmlsl_s16_source",
    "Verif.Props.vmlsl_s32_source",
    "Verif.Props.vmlsl_u8_source",
    "Verif.Props.vmlsl_u16_source",
    "Verif.Props.vmlsl_u32_source",
    "Verif.Props.vmlaq_s8_source",
    "Verif.Props.vmlaq_s16_source",
    "Verif.Props.vmlaq_s32_source",
    "Verif.Props.vmlaq_u8_source",
    "Verif.Props.vmlaq_u16_source",
    "Verif.Props.vmlaq_u32_source",
    "Verif.Props.vmlaq_f32_source",
    "Verif.Props.vmlaq_n_f32_source",
    "Verif.Props.vdup_n_s8_source",
    "Verif.Props.vdup_n_s16_source",
    "Verif.Props.vdup_n_s32_source",
    "Verif.Props.vdup_n_s64_source",
    "Verif.Props.vdup_n_u8_source",
    "Verif.Props.vdup_n_u16_source",
    "Verif.Props.vdup_n_u32_source",
    "Verif.Props.vdup_n_u64_source",
    "Verif.Props.vdupq_n_u8_source",
    "Verif.Props.vdupq_n_s8_source",
    "Verif.Props.vdupq_n_u16_source",
    "Verif.Props.vdupq_n_s16_source",
    "Verif.Props.vdupq_n_u32_source",
    "Verif.Props.vdupq_n_s32_source",
    "Verif.Props.vdupq_n_f32_source",
    "Verif.Props.vmovq_n_f32_source",
    "Verif.Props.vget_low_f32_source",
    "Verif.Props.vget_low_s32_source",
    "Verif.Props.vget_low_u32_source",
    "Verif.Props.vget_low_s16_source",
    "Verif.Props.vget_low_u16_source",
    "Verif.Props.vget_low_s8_source",
    "Verif.Props.vget_low_u8_source",
    "Verif.Props.vget_high_f32_source",
    "Verif.Props.vget_high_s32_source",
    "Verif.Props.vget_high_s16_source",
    "Verif.Props.vget_high_u16_source",
    "Verif.Props.vget_high_u32_source",
    "Verif.Props.vget_high_s8_source",
    "Verif.Props.vget_high_u8_source",
    "Verif.Props.vpmax_f32_source",
    "Verif.Props.vpmin_f32_source",
    "Verif.Props.vget_lane_f32_source",
    "Verif.Props.vgetq_lane_f32_source",
    "Verif.Props.vgetq_lane_u8_source",
    "Verif.Props.vgetq_lane_u16_source",
    "Verif.Props.vgetq_lane_u32_source",
    "Verif.Props.vgetq_lane_u64_source",
    "Verif.Props.vgetq_lane_s8_source",
    "Verif.Props.vgetq_lane_s16_source",
    "Verif.Props.vgetq_lane_s32_source",
    "Verif.Props.vgetq_lane_s64_source",
    "Verif.Props.vgetq_lane_f64_source",
    "Verif.Props.vminq_s8_source",
    "Verif.Props.vminq_s16_source",
    "Verif.Props.vminq_s32_source",
    "Verif.Props.vminq_u8_source",
    "Verif.Props.vminq_u16_source",
    "Verif.Props.vminq_u32_source",
    "Verif.Props.vminq_f32_source",
    "Verif.Props.vcltq_f32_source",
    "Verif.Props.vbslq_f32_source",
    "Verif.Props.vshrn_n_s16_source",
    "Verif.Props.vshr_n_u16_source",
    "Verif.Props.vshrn_n_s32_source",
    "Verif.Props.vshrn_n_s64_source",
    "Verif.Props.vshrn_n_u16_source",
    "Verif.Props.vshrn_n_u32_source",
    "Verif.Props.vshrn_n_u64_source",
    "Verif.Props.vqshrun_n_s16_source",
    "Verif.Props.vqshrun_n_s32_source",
    "Verif.Props.vqshrun_n_s64_source",
    "Verif.Props.vqrshrun_n_s16_source",
    "Verif.Props.vrshrn_n_u16_source",
    "Verif.Props.vsraq_n_s32_source",
    "Verif.Props.vshlq_n_s32_source",
    "Verif.Props.vshll_n_u8_source",
    "Verif.Props.vreinterpret_u8_s8_source",
    "Verif.Props.vreinterpretq_s16_u16_source",
    "Verif.Props.vreinterpretq_u16_s16_source",
    "Verif.Props.vreinterpret_u16_u8_source",
    "Verif.Props.vreinterpret_u32_u16_source",
    "Verif.Props.vreinterpret_u8_u32_source",
    "Verif.Props.vreinterpret_u32_u8_source",
    "Verif.Props.vreinterpret_s8_u8_source",
    "Verif.Props.vreinterpret_s32_s16_source",
    "Verif.Props.vreinterpret_s16_s32_source",
    "Verif.Props.vreinterpretq_u8_s8_source",
    "Verif.Props.vreinterpretq_u8_s16_source",
    "Verif.Props.vreinterpretq_u8_s32_source",
    "Verif.Props.vreinterpretq_u8_f32_source",
    "Verif.Props.vreinterpretq_u8_u16_source",
    "Verif.Props.vreinterpretq_u8_u32_source",
    "Verif.Props.vreinterpretq_u8_u64_source",
    "Verif.Props.vreinterpretq_u8_s64_source",
    "Verif.Props.vreinterpretq_u8_f64_source",
    "Verif.Props.vreinterpretq_u32_s8_source",
    "Verif.Props.vreinterpretq_u32_s16_source",
    "Verif.Props.vreinterpretq_u32_s32_source",
    "Verif.Props.vreinterpretq_u32_f32_source",
    "Verif.Props.vreinterpretq_u32_u8_source",
    "Verif.Props.vreinterpretq_u32_u16_source",
    "Verif.Props.vreinterpretq_u32_u64_source",
    "Verif.Props.vreinterpretq_u32_s64_source",
    "Verif.Props.vreinterpretq_u32_f64_source",
    "Verif.Props.vcvtq_f32_s32_source",
    "Verif.Props.vcvtq_s32_f32_source",
    "Verif.Props.vcvtq_u32_f32_source",
    "Verif.Props.vcvtnq_s32_f32_source",
    "Verif.Props.vrecpsq_f32_source",
    "Verif.Props.vtrn_s8_source",
    "Verif.Props.vtrn_u8_source",
    "Verif.Props.vtrn_s16_source",
    "Verif.Props.vtrn_u16_source",
    "Verif.Props.vtrn_s32_source",
    "Verif.Props.vtrn_u32_source",
    "Verif.Props.vtrnq_u16_source",
    "Verif.Props.vtrnq_u32_source",
    "Verif.Props.vtrnq_s16_source",
    "Verif.Props.vzip_s16_source",
    "Verif.Props.vcombine_u8_source",
    "Verif.Props.vcombine_u16_source",
    "Verif.Props.vcombine_u32_source",
    "Verif.Props.vcombine_s8_source",
    "Verif.Props.vcombine_s16_source",
    "Verif.Props.vcombine_s32_source",
    "Verif.Props.vmovn_s32_source",
    "Verif.Props.vmovn_u32_source",
    "Verif.Props.vmovn_u16_source",
    "Verif.Props.vmovl_u8_source",
    "Verif.Props.vmovl_u16_source",
    "Verif.Props.vmovl_u32_source",
    "Verif.Props.vmovl_s8_source",
    "Verif.Props.vmovl_s16_source",
    "Verif.Props.vmovl_s32_source",
    "Verif.Props.vqmovn_u16_source",
    "Verif.Props.vqmovun_s16_source",
    "Verif.Props.vqtbl1_u8_source",
    "Verif.Props.vext_u8_source",
    "Verif.Props.vext_u16_source",
    "Verif.Props.vext_s16_source",
    "Verif.Props.vextq_u16_source",
    "Verif.Props.vcgtq_u8_source",
    "Verif.Props.vbslq_u8_source",
    "Verif.Props.vtbl1_u8_source",
    "Verif.Props.vtbl4_u8_source",
    "Verif.Props.vtbl2_u8_source",
    "Verif.Props.vand_s8_source",
    "Verif.Props.vand_s16_source",
    "Verif.Props.vand_s32_source",
    "Verif.Props.vand_s64_source",
    "Verif.Props.vand_u8_source",
    "Verif.Props.vand_u16_source",
    "Verif.Props.vand_u32_source",
    "Verif.Props.vand_u64_source",
    "Verif.Props.vandq_s8_source",
    "Verif.Props.vandq_s16_source",
    "Verif.Props.vandq_s32_source",
    "Verif.Props.vandq_s64_source",
    "Verif.Props.vandq_u8_source",
    "Verif.Props.vandq_u16_source",
    "Verif.Props.vandq_u32_source",
    "Verif.Props.vandq_u64_source",
    "Verif.Props.vorr_s8_source",
    "Verif.Props.vorr_s16_source",
    "Verif.Props.vorr_s32_source",
    "Verif.Props.vorr_s64_source",
    "Verif.Props.vorr_u8_source",
    "Verif.Props.vorr_u16_source",
    "Verif.Props.vorr_u32_source",
    "Verif.Props.vorr_u64_source",
    "Verif.Props.vorrq_s8_source",
    "Verif.Props.vorrq_s16_source",
    "Verif.Props.vorrq_s32_source",
    "Verif.Props.vorrq_s64_source",
    "Verif.Props.vorrq_u8_source",
    "Verif.Props.vorrq_u16_source",
    "Verif.Props.vorrq_u32_source",
    "Verif.Props.vorrq_u64_source",
    "Verif.Props.veor_s8_source",
    "Verif.Props.veor_s16_source",
    "Verif.Props.veor_s32_source",
    "Verif.Props.veor_s64_source",
    "Verif.Props.veor_u8_source",
    "Verif.Props.veor_u16_source",
    "Verif.Props.ver_u32_source",
    "Verif.Props.veor_u64_source",
    "Verif.Props.veorq_s8_source",
    "Verif.Props.veorq_s16_source",
    "Verif.Props.veorq_s32_source",
    "Verif.Props.veorq_s64_source",
    "Verif.Props.veorq_u8_source",
    "Verif.Props.veorq_u16_source",
    "Verif.Props.veorq_u32_source",
    "Verif.Props.veorq_u64_source",
    "Verif.Props.vmvn_s8_source",
    "Verif.Props.vmvn_s16_source",
    "Verif.Props.vmvn_s32_source",
    "Verif.Props.vmvn_u8_source",
    "Verif.Props.vmvn_u16_source",
    "Verif.Props.vmvn_u32_source",
    "Verif.Props.vmvnq_s8_source",
    "Verif.Props.vmvnq_s16_source",
    "Verif.Props.vmvnq_s32_source",
    "Verif.Props.vmvnq_u8_source",
    "Verif.Props.vmvnq_u16_source",
    "Verif.Props.vmvnq_u32_source",
    "Verif.Props.vzip_s8_source",
    "Verif.Props.vzip_u8_source",
    "Verif.Props.vuzp_u8_source",
    "Verif.Props.vuzp_s8_source",
    "Verif.Props.vrev16_s8_source",
    "Verif.Props.vrev16_u8_source",
    "Verif.Props.vrev16q_s8_source",
    "Verif.Props.vrev16q_u8_source",
    "Verif.Props.vrev32_s8_source",
    "Verif.Props.vrev32_s16_source",
    "Verif.Props.vrev32_u8_source",
    "Verif.Props.vrev32_u16_source",
    "Verif.Props.vrev32q_s8_source",
    "Verif.Props.vrev32q_s16_source",
    "Verif.Props.vrev32q_u8_source",
    "Verif.Props.vrev32q_u16_source",
    "Verif.Props.vrev64_s8_source",
    "Verif.Props.vrev64_s16_source",
    "Verif.Props.vrev64_s32_source",
    "Verif.Props.vrev64_u8_source",
    "Verif.Props.vrev64_u16_source",
    "Verif.Props.vrev64_u32_source",
    "Verif.Props.vrev64_f32_source",
    "Verif.Props.vrev64q_s8_source",
    "Verif.Props.vrev64q_s16_source",
    "Verif.Props.vrev64q_s32_source",
    "Verif.Props.vrev64q_u8_source",
    "Verif.Props.vrev64q_u16_source",
    "Verif.Props.vrev64q_u32_source",
    "Verif.Props.vrev64q_f32_source",
    "Verif.Props.vdiv_f32_source",
    "Verif.Props.vdiv_f64_source",
    "Verif.Props.vdivq_f32_source",
    "Verif.Props.vdivq_f64_source",
    "Verif.Props.vqshrn_n_s16_source",
    "Verif.Props.vqshrn_n_s32_source",
    "Verif.Props.vqshrn_n_s64_source",
    "Verif.Props.vqshrn_n_u16_source",
    "Verif.Props.vqshrn_n_u32_source",
    "Verif.Props.vqshrn_n_u64_source",
    "Verif.Props.RecipEstimate_source",
    "Verif.Props.runs_unique",
    "Verif.Props.FPRecipEstimate_source",
    "Verif.Props.vrecpeq_f32_source",
    "Verif.Props.runsIn_unique"
   ],
   "note": "For all 540 definitions. The text is parsed and executed inside Lean (`Verif/Cpp`); `Runs text args r` says the text parses as a function and every execution with at least 1000 units of loop fuel has outcome r; `RunsIn` says the same of a function of a translation unit with classes and calls (float_parts, RecipEstimate, FPRecipEstimate, vrecpeq_f32; here the unused members of float_parts are executed too). tools/check_source.py compares the texts with neon_sim.cpp."
  },
  {
   "property": "C76",
   "status": "partial",
   "theorems": [
    "Verif.Props.exactly_called",
    "Verif.Props.means_called",
    "Verif.Props.exec_unique",
    "Verif.Props.program_ensures_partial",
    "Verif.Props.exactly_unique",
    "Verif.Props.library_defines",
    "Verif.Props.library_distinct"
   ],
   "note": "Proved for the intrinsics and arguments that have a rule in Verif/Arm.lean (530 intrinsics). The intrinsics that the simulator gets wrong (C07, C13, C18, C24, C29, C40, ...) have a rule for exactly the arguments for which it is right (C80; for vrecpsq_f32, for the arguments of `vrecpsq_f32_fused_partial`); the 7 that are never right have none. The simulator side runs the texts of neon_sim.cpp (`library`), not the model."
  },
  {
   "property": "C77",
   "status": "proved",
   "theorems": [
    "Verif.Props.grey_program"
   ],
   "note": "`greyProg` in Verif/Props/Client.lean."
  },
  {
   "property": "C78",
   "status": "proved",
   "theorems": [
    "Verif.Props.call_total",
    "Verif.Props.header_read",
    "Verif.Props.defined_read"
   ],
   "note": "For all 539 texts of the library. The signature is read from the text (`Text.sig`), with the types of the header."
  },
  {
   "property": "C79",
   "status": "proved",
   "theorems": [
    "Verif.Props.program_total",
    "Verif.Props.grey_typed"
   ],
   "note": "The typing rules are in Verif/ProgTyping.lean."
  },
  {
   "property": "C80",
   "status": "proved",
   "theorems": [
    "Verif.Props.vaddl_high_s32_right_iff",
    "Verif.Props.vaddl_high_u32_right_iff",
    "Verif.Props.vmull_s32_right_iff",
    "Verif.Props.vmull_u32_right_iff",
    "Verif.Props.vmull_n_s32_right_iff",
    "Verif.Props.vmull_n_u32_right_iff",
    "Verif.Props.vmlal_s32_right_iff",
    "Verif.Props.vmlal_u32_right_iff",
    "Verif.Props.vmlsl_s32_right_iff",
    "Verif.Props.vmlsl_u32_right_iff",
    "Verif.Props.vhsub_s32_right_iff",
    "Verif.Props.vhsub_u32_right_iff",
    "Verif.Props.vhsubq_s32_right_iff",
    "Verif.Props.vhsubq_u32_right_iff",
    "Verif.Props.vmaxq_u8_right_iff",
    "Verif.Props.vmaxq_u16_right_iff",
    "Verif.Props.vmaxq_u32_right_iff",
    "Verif.Props.vminq_u8_right_iff",
    "Verif.Props.vminq_u16_right_iff",
    "Verif.Props.vminq_u32_right_iff",
    "Verif.Props.vsubn_u32_right_iff",
    "Verif.Props.vsubn_s32_right_iff",
    "Verif.Props.vaddhn_high_u32_right_iff",
    "Verif.Props.vaddhn_high_s32_right_iff",
    "Verif.Props.vsubn_u64_right_iff",
    "Verif.Props.vsubn_s64_right_iff",
    "Verif.Props.vaddhn_high_u64_right_iff",
    "Verif.Props.vaddhn_high_s64_right_iff",
    "Verif.Props.vrsubhn_s64_never_right",
    "Verif.Props.vrsubhn_u64_never_right",
    "Verif.Props.vsraq_n_s32_right_iff",
    "Verif.Props.vshr_n_u16_right_iff",
    "Verif.Props.vqshrn_n_s64_right_iff",
    "Verif.Props.vqtbl1_u8_right_iff",
    "Verif.Props.vbslq_f32_right_iff",
    "Verif.Props.vmaxq_f32_right_iff",
    "Verif.Props.vminq_f32_right_iff",
    "Verif.Props.vpmax_f32_right_iff",
    "Verif.Props.vpmin_f32_right_iff",
    "Verif.Props.vcvtq_s32_f32_right_iff",
    "Verif.Props.vcvtq_u32_f32_right_iff",
    "Verif.Props.vcvtnq_s32_f32_right_iff",
    "Verif.Props.vst4_u8_right_iff",
    "Verif.Props.vst4_u32_right_iff",
    "Verif.Props.vqsub_s64_right_iff",
    "Verif.Props.vqsubq_s64_right_iff",
    "Verif.Props.vqsub_u64_right_iff",
    "Verif.Props.vqsubq_u64_right_iff",
    "Verif.Props.vrev32_s8_wrong",
    "Verif.Props.vqshrun_n_s32_wrong",
    "Verif.Props.vqshrun_n_s64_wrong"
   ],
   "note": "Necessary and sufficient conditions (`_right_iff`). For vqsub(q)_s64/u64 the condition is on the difference computed in double. vrecpeq_f32/vrecpsq_f32 (C57, C72) are not in this list."
  },
  {
   "property": "C81",
   "status": "partial",
   "theorems": [
    "Verif.Props.almostEqual_u8x8_passes",
    "Verif.Props.almostEqual_u8x8_reports",
    "Verif.Props.almostEqual_u8x8_returns",
    "Verif.Props.almostEqual_u8x8_exact",
    "Verif.Props.almostEqual_s8x8_passes",
    "Verif.Props.almostEqual_s8x8_reports",
    "Verif.Props.almostEqual_s8x8_returns",
    "Verif.Props.almostEqual_s8x8_exact",
    "Verif.Props.almostEqual_u16x8_passes",
    "Verif.Props.almostEqual_u16x8_reports",
    "Verif.Props.almostEqual_u16x8_returns",
    "Verif.Props.almostEqual_u16x8_exact",
    "Verif.Props.almostEqual_s16x8_passes",
    "Verif.Props.almostEqual_s16x8_reports",
    "Verif.Props.almostEqual_s16x8_returns",
    "Verif.Props.almostEqual_s16x8_exact",
    "Verif.Props.almostEqual_s8x16_passes",
    "Verif.Props.almostEqual_s8x16_reports",
    "Verif.Props.almostEqual_s8x16_returns",
    "Verif.Props.almostEqual_s8x16_exact",
    "Verif.Props.almostEqual_s16x4_passes",
    "Verif.Props.almostEqual_s16x4_reports",
    "Verif.Props.almostEqual_s16x4_returns",
    "Verif.Props.almostEqual_s16x4_exact",
    "Verif.Props.almostEqual_u8x8x2_exact",
    "Verif.Props.almostEqual_u8x8x2_returns",
    "Verif.Props.almostEqual_u8x8x2_reports",
    "Verif.Props.almostEqual_f32x4_passes",
    "Verif.Props.almostEqual_f32x4_accepts",
    "Verif.Props.almostEqual_f32x4_exact",
    "Verif.Props.almostEqual_f32x4_reports",
    "Verif.Props.almostEqual_f32x4_ub_iff",
    "Verif.Props.almostEqual_f32x4_outcomes",
    "Verif.Props.almostEqual_f32x4_nan_wrong",
    "Verif.Props.almostEqual_f32x4_message_wrong",
    "Verif.Props.almostEqual_vec_passes",
    "Verif.Props.almostEqual_vec_exact",
    "Verif.Props.almostEqual_vec_reports",
    "Verif.Props.almostEqual_vec_past_iff",
    "Verif.Props.almostEqual_vec_tail_wrong"
   ],
   "note": "Proved for the integer overloads and uint8x8x2_t. For float32x4_t and std::vector<float> exact conditions are proved, and they refute the property: a NaN result passes against anything (`nan_wrong`), a failing lane whose value does not fit int is undefined behaviour (`message_wrong`), vectors are compared in their first four entries only (`tail_wrong`) and shorter ones are read past the end (`past_iff`). The text of the message is in C106."
  },
  {
   "property": "C82",
   "status": "proved",
   "theorems": [
    "Verif.Props.intercalate_injective",
    "Verif.Props.text_injective",
    "Verif.Props.put_u8x8_spec",
    "Verif.Props.put_u8x8_injective",
    "Verif.Props.put_u8x16_spec",
    "Verif.Props.put_u8x16_injective",
    "Verif.Props.put_s8x8_spec",
    "Verif.Props.put_s8x8_injective",
    "Verif.Props.put_s8x16_spec",
    "Verif.Props.put_s8x16_injective",
    "Verif.Props.put_u16x4_spec",
    "Verif.Props.put_u16x4_injective",
    "Verif.Props.put_u16x8_spec",
    "Verif.Props.put_u16x8_injective",
    "Verif.Props.put_s16x4_spec",
    "Verif.Props.put_s16x4_injective",
    "Verif.Props.put_s16x8_spec",
    "Verif.Props.put_s16x8_injective",
    "Verif.Props.put_u32x2_spec",
    "Verif.Props.put_u32x2_injective",
    "Verif.Props.put_u32x4_spec",
    "Verif.Props.put_u32x4_injective",
    "Verif.Props.put_s32x2_spec",
    "Verif.Props.put_s32x2_injective",
    "Verif.Props.put_s32x4_spec",
    "Verif.Props.put_s32x4_injective",
    "Verif.Props.put_f32x2_spec",
    "Verif.Props.put_f32x4_spec",
    "Verif.Props.put_u64x1_spec",
    "Verif.Props.put_u64x1_injective",
    "Verif.Props.put_u64x2_spec",
    "Verif.Props.put_u64x2_injective",
    "Verif.Props.put_s64x1_spec",
    "Verif.Props.put_s64x1_injective",
    "Verif.Props.put_s64x2_spec",
    "Verif.Props.put_s64x2_injective",
    "Verif.Props.put_f64x1_spec",
    "Verif.Props.put_f64x2_spec",
    "Verif.Props.put_u8x8x2_spec",
    "Verif.Props.put_u8x8x2_injective",
    "Verif.Props.put_u8x8x3_spec",
    "Verif.Props.put_u8x8x3_injective",
    "Verif.Props.put_u8x8x4_spec",
    "Verif.Props.put_u8x8x4_injective",
    "Verif.Props.put_u8x16x2_spec",
    "Verif.Props.put_u8x16x2_injective",
    "Verif.Props.put_u8x16x3_spec",
    "Verif.Props.put_u8x16x3_injective",
    "Verif.Props.put_u8x16x4_spec",
    "Verif.Props.put_u8x16x4_injective",
    "Verif.Props.put_s8x8x2_spec",
    "Verif.Props.put_s8x8x2_injective",
    "Verif.Props.put_s8x8x3_spec",
    "Verif.Props.put_s8x8x3_injective",
    "Verif.Props.put_s8x8x4_spec",
    "Verif.Props.put_s8x8x4_injective",
    "Verif.Props.put_s8x16x2_spec",
    "Verif.Props.put_s8x16x2_injective",
    "Verif.Props.put_s8x16x3_spec",
    "Verif.Props.put_s8x16x3_injective",
    "Verif.Props.put_s8x16x4_spec",
    "Verif.Props.put_s8x16x4_injective",
    "Verif.Props.put_u16x4x2_spec",
    "Verif.Props.put_u16x4x2_injective",
    "Verif.Props.put_u16x4x3_spec",
    "Verif.Props.put_u16x4x3_injective",
    "Verif.Props.put_u16x4x4_spec",
    "Verif.Props.put_u16x4x4_injective",
    "Verif.Props.put_u16x8x2_spec",
    "Verif.Props.put_u16x8x2_injective",
    "Verif.Props.put_u16x8x3_spec",
    "Verif.Props.put_u16x8x3_injective",
    "Verif.Props.put_u16x8x4_spec",
    "Verif.Props.put_u16x8x4_injective",
    "Verif.Props.put_s16x4x2_spec",
    "Verif.Props.put_s16x4x2_injective",
    "Verif.Props.put_s16x4x3_spec",
    "Verif.Props.put_s16x4x3_injective",
    "Verif.Props.put_s16x4x4_spec",
    "Verif.Props.put_s16x4x4_injective",
    "Verif.Props.put_s16x8x2_spec",
    "Verif.Props.put_s16x8x2_injective",
    "Verif.Props.put_s16x8x3_spec",
    "Verif.Props.put_s16x8x3_injective",
    "Verif.Props.put_s16x8x4_spec",
    "Verif.Props.put_s16x8x4_injective",
    "Verif.Props.put_u32x2x2_spec",
    "Verif.Props.put_u32x2x2_injective",
    "Verif.Props.put_u32x2x3_spec",
    "Verif.Props.put_u32x2x3_injective",
    "Verif.Props.put_u32x2x4_spec",
    "Verif.Props.put_u32x2x4_injective",
    "Verif.Props.put_u32x4x2_spec",
    "Verif.Props.put_u32x4x2_injective",
    "Verif.Props.put_u32x4x3_spec",
    "Verif.Props.put_u32x4x3_injective",
    "Verif.Props.put_u32x4x4_spec",
    "Verif.Props.put_u32x4x4_injective",
    "Verif.Props.put_s32x2x2_spec",
    "Verif.Props.put_s32x2x2_injective",
    "Verif.Props.put_s32x2x3_spec",
    "Verif.Props.put_s32x2x3_injective",
    "Verif.Props.put_s32x2x4_spec",
    "Verif.Props.put_s32x2x4_injective",
    "Verif.Props.put_s32x4x2_spec",
    "Verif.Props.put_s32x4x2_injective",
    "Verif.Props.put_s32x4x3_spec",
    "Verif.Props.put_s32x4x3_injective",
    "Verif.Props.put_s32x4x4_spec",
    "Verif.Props.put_s32x4x4_injective",
    "Verif.Props.put_f32x2x2_spec",
    "Verif.Props.put_f32x2x3_spec",
    "Verif.Props.put_f32x2x4_spec",
    "Verif.Props.put_f32x4x2_spec",
    "Verif.Props.put_f32x4x3_spec",
    "Verif.Props.put_f32x4x4_spec",
    "Verif.Props.put_u64x1x2_spec",
    "Verif.Props.put_u64x1x2_injective",
    "Verif.Props.put_u64x1x3_spec",
    "Verif.Props.put_u64x1x3_injective",
    "Verif.Props.put_u64x1x4_spec",
    "Verif.Props.put_u64x1x4_injective",
    "Verif.Props.put_u64x2x2_spec",
    "Verif.Props.put_u64x2x2_injective",
    "Verif.Props.put_u64x2x3_spec",
    "Verif.Props.put_u64x2x3_injective",
    "Verif.Props.put_u64x2x4_spec",
    "Verif.Props.put_u64x2x4_injective",
    "Verif.Props.put_s64x1x2_spec",
    "Verif.Props.put_s64x1x2_injective",
    "Verif.Props.put_s64x1x3_spec",
    "Verif.Props.put_s64x1x3_injective",
    "Verif.Props.put_s64x1x4_spec",
    "Verif.Props.put_s64x1x4_injective",
    "Verif.Props.put_s64x2x2_spec",
    "Verif.Props.put_s64x2x2_injective",
    "Verif.Props.put_s64x2x3_spec",
    "Verif.Props.put_s64x2x3_injective",
    "Verif.Props.put_s64x2x4_spec",
    "Verif.Props.put_s64x2x4_injective",
    "Verif.Props.put_f64x1x2_spec",
    "Verif.Props.put_f64x1x3_spec",
    "Verif.Props.put_f64x1x4_spec",
    "Verif.Props.put_f64x2x2_spec",
    "Verif.Props.put_f64x2x3_spec",
    "Verif.Props.put_f64x2x4_spec"
   ],
   "note": "The text of floats is a parameter here, so for float registers only the layout is proved; the text is in C106. The operators are written for the vector types of Arm compilers; the model has the simulator's registers, with the same lanes. The stream is in its default state and does not fail."
  },
  {
   "property": "C83",
   "status": "proved",
   "theorems": [
    "Verif.Props.vaddq_f32_error",
    "Verif.Props.vaddq_f32_zero",
    "Verif.Props.vaddq_f32_int",
    "Verif.Props.vaddq_f32_mono",
    "Verif.Props.vaddq_f32_double",
    "Verif.Props.vsub_f32_error",
    "Verif.Props.vsub_f32_zero",
    "Verif.Props.vsub_f32_int",
    "Verif.Props.vsub_f32_self",
    "Verif.Props.vsub_f32_antisymm",
    "Verif.Props.vsub_f32_exact",
    "Verif.Props.vsub_f32_mono",
    "Verif.Props.vsub_f32_overload2_error",
    "Verif.Props.vsub_f32_overload2_zero",
    "Verif.Props.vsub_f32_overload2_int",
    "Verif.Props.vsub_f32_overload2_self",
    "Verif.Props.vsub_f32_overload2_antisymm",
    "Verif.Props.vsub_f32_overload2_exact",
    "Verif.Props.vsub_f32_overload2_mono",
    "Verif.Props.vsubq_f32_error",
    "Verif.Props.vsubq_f32_zero",
    "Verif.Props.vsubq_f32_int",
    "Verif.Props.vsubq_f32_self",
    "Verif.Props.vsubq_f32_antisymm",
    "Verif.Props.vsubq_f32_exact",
    "Verif.Props.vsubq_f32_mono",
    "Verif.Props.vmulq_f32_error",
    "Verif.Props.vmulq_f32_one",
    "Verif.Props.vmulq_f32_int",
    "Verif.Props.vmulq_f32_mono",
    "Verif.Props.vmul_n_f32_error",
    "Verif.Props.vmul_n_f32_one",
    "Verif.Props.vmul_n_f32_int",
    "Verif.Props.vmul_n_f32_mono",
    "Verif.Props.vmul_n_f64_error",
    "Verif.Props.vmul_n_f64_one",
    "Verif.Props.vmul_n_f64_int",
    "Verif.Props.vmul_n_f64_mono",
    "Verif.Props.vmulq_n_f32_error",
    "Verif.Props.vmulq_n_f32_one",
    "Verif.Props.vmulq_n_f32_int",
    "Verif.Props.vmulq_n_f32_mono",
    "Verif.Props.vmulq_n_f64_error",
    "Verif.Props.vmulq_n_f64_one",
    "Verif.Props.vmulq_n_f64_int",
    "Verif.Props.vmulq_n_f64_mono",
    "Verif.Props.vdiv_f32_error",
    "Verif.Props.vdiv_f32_one",
    "Verif.Props.vdiv_f32_mono",
    "Verif.Props.vdiv_f32_self",
    "Verif.Props.vdiv_f64_error",
    "Verif.Props.vdiv_f64_one",
    "Verif.Props.vdiv_f64_mono",
    "Verif.Props.vdiv_f64_self",
    "Verif.Props.vdivq_f32_error",
    "Verif.Props.vdivq_f32_one",
    "Verif.Props.vdivq_f32_mono",
    "Verif.Props.vdivq_f32_self",
    "Verif.Props.vdivq_f64_error",
    "Verif.Props.vdivq_f64_one",
    "Verif.Props.vdivq_f64_mono",
    "Verif.Props.vdivq_f64_self"
   ],
   "note": "For every intrinsic that adds, subtracts, multiplies or divides floats lane by lane and is defined in neon_sim.cpp."
  },
  {
   "property": "C84",
   "status": "proved",
   "theorems": [
    "Verif.Props.vaddq_f32_accumulate",
    "Verif.Props.vmlaq_f32_accumulate",
    "Verif.Props.sum_loop_f32",
    "Verif.Props.dot_loop_f32"
   ],
   "note": ""
  },
  {
   "property": "C85",
   "status": "proved",
   "theorems": [
    "Verif.Props.vec_ok",
    "Verif.Props.vand_s8_comm",
    "Verif.Props.vand_s8_assoc",
    "Verif.Props.vorr_s8_comm",
    "Verif.Props.vorr_s8_assoc",
    "Verif.Props.veor_s8_comm",
    "Verif.Props.veor_s8_assoc",
    "Verif.Props.vand_s8_self",
    "Verif.Props.vorr_s8_self",
    "Verif.Props.veor_s8_self",
    "Verif.Props.vand_s8_zero",
    "Verif.Props.vand_s8_ones",
    "Verif.Props.vorr_s8_zero",
    "Verif.Props.vorr_s8_ones",
    "Verif.Props.veor_s8_zero",
    "Verif.Props.vand_s8_vorr_s8_absorb",
    "Verif.Props.vorr_s8_vand_s8_absorb",
    "Verif.Props.vand_s8_vorr_s8_distrib",
    "Verif.Props.vorr_s8_vand_s8_distrib",
    "Verif.Props.vand_s8_veor_s8_distrib",
    "Verif.Props.vand_s8_vmvn_s8",
    "Verif.Props.vorr_s8_vmvn_s8",
    "Verif.Props.veor_s8_vand_s8_vorr_s8",
    "Verif.Props.veor_s8_vmvn_s8",
    "Verif.Props.vand_s16_comm",
    "Verif.Props.vand_s16_assoc",
    "Verif.Props.vorr_s16_comm",
    "Verif.Props.vorr_s16_assoc",
    "Verif.Props.veor_s16_comm",
    "Verif.Props.veor_s16_assoc",
    "Verif.Props.vand_s16_self",
    "Verif.Props.vorr_s16_self",
    "Verif.Props.veor_s16_self",
    "Verif.Props.vand_s16_zero",
    "Verif.Props.vand_s16_ones",
    "Verif.Props.vorr_s16_zero",
    "Verif.Props.vorr_s16_ones",
    "Verif.Props.veor_s16_zero",
    "Verif.Props.vand_s16_vorr_s16_absorb",
    "Verif.Props.vorr_s16_vand_s16_absorb",
    "Verif.Props.vand_s16_vorr_s16_distrib",
    "Verif.Props.vorr_s16_vand_s16_distrib",
    "Verif.Props.vand_s16_veor_s16_distrib",
    "Verif.Props.vand_s16_vmvn_s16",
    "Verif.Props.vorr_s16_vmvn_s16",
    "Verif.Props.veor_s16_vand_s16_vorr_s16",
    "Verif.Props.veor_s16_vmvn_s16",
    "Verif.Props.vand_s32_comm",
    "Verif.Props.vand_s32_assoc",
    "Verif.Props.vorr_s32_comm",
    "Verif.Props.vorr_s32_assoc",
    "Verif.Props.veor_s32_comm",
    "Verif.Props.veor_s32_assoc",
    "Verif.Props.vand_s32_self",
    "Verif.Props.vorr_s32_self",
    "Verif.Props.veor_s32_self",
    "Verif.Props.vand_s32_zero",
    "Verif.Props.vand_s32_ones",
    "Verif.Props.vorr_s32_zero",
    "Verif.Props.vorr_s32_ones",
    "Verif.Props.veor_s32_zero",
    "Verif.Props.vand_s32_vorr_s32_absorb",
    "Verif.Props.vorr_s32_vand_s32_absorb",
    "Verif.Props.vand_s32_vorr_s32_distrib",
    "Verif.Props.vorr_s32_vand_s32_distrib",
    "Verif.Props.vand_s32_veor_s32_distrib",
    "Verif.Props.vand_s32_vmvn_s32",
    "Verif.Props.vorr_s32_vmvn_s32",
    "Verif.Props.veor_s32_vand_s32_vorr_s32",
    "Verif.Props.veor_s32_vmvn_s32",
    "Verif.Props.vand_s64_comm",
    "Verif.Props.vand_s64_assoc",
    "Verif.Props.vorr_s64_comm",
    "Verif.Props.vorr_s64_assoc",
    "Verif.Props.veor_s64_comm",
    "Verif.Props.veor_s64_assoc",
    "Verif.Props.vand_s64_self",
    "Verif.Props.vorr_s64_self",
    "Verif.Props.veor_s64_self",
    "Verif.Props.vand_s64_zero",
    "Verif.Props.vand_s64_ones",
    "Verif.Props.vorr_s64_zero",
    "Verif.Props.vorr_s64_ones",
    "Verif.Props.veor_s64_zero",
    "Verif.Props.vand_s64_vorr_s64_absorb",
    "Verif.Props.vorr_s64_vand_s64_absorb",
    "Verif.Props.vand_s64_vorr_s64_distrib",
    "Verif.Props.vorr_s64_vand_s64_distrib",
    "Verif.Props.vand_s64_veor_s64_distrib",
    "Verif.Props.vand_u8_comm",
    "Verif.Props.vand_u8_assoc",
    "Verif.Props.vorr_u8_comm",
    "Verif.Props.vorr_u8_assoc",
    "Verif.Props.veor_u8_comm",
    "Verif.Props.veor_u8_assoc",
    "Verif.Props.vand_u8_self",
    "Verif.Props.vorr_u8_self",
    "Verif.Props.veor_u8_self",
    "Verif.Props.vand_u8_zero",
    "Verif.Props.vand_u8_ones",
    "Verif.Props.vorr_u8_zero",
    "Verif.Props.vorr_u8_ones",
    "Verif.Props.veor_u8_zero",
    "Verif.Props.vand_u8_vorr_u8_absorb",
    "Verif.Props.vorr_u8_vand_u8_absorb",
    "Verif.Props.vand_u8_vorr_u8_distrib",
    "Verif.Props.vorr_u8_vand_u8_distrib",
    "Verif.Props.vand_u8_veor_u8_distrib",
    "Verif.Props.vand_u8_vmvn_u8",
    "Verif.Props.vorr_u8_vmvn_u8",
    "Verif.Props.veor_u8_vand_u8_vorr_u8",
    "Verif.Props.veor_u8_vmvn_u8",
    "Verif.Props.vand_u16_comm",
    "Verif.Props.vand_u16_assoc",
    "Verif.Props.vorr_u16_comm",
    "Verif.Props.vorr_u16_assoc",
    "Verif.Props.veor_u16_comm",
    "Verif.Props.veor_u16_assoc",
    "Verif.Props.vand_u16_self",
    "Verif.Props.vorr_u16_self",
    "Verif.Props.veor_u16_self",
    "Verif.Props.vand_u16_zero",
    "Verif.Props.vand_u16_ones",
    "Verif.Props.vorr_u16_zero",
    "Verif.Props.vorr_u16_ones",
    "Verif.Props.veor_u16_zero",
    "Verif.Props.vand_u16_vorr_u16_absorb",
    "Verif.Props.vorr_u16_vand_u16_absorb",
    "Verif.Props.vand_u16_vorr_u16_distrib",
    "Verif.Props.vorr_u16_vand_u16_distrib",
    "Verif.Props.vand_u16_veor_u16_distrib",
    "Verif.Props.vand_u16_vmvn_u16",
    "Verif.Props.vorr_u16_vmvn_u16",
    "Verif.Props.veor_u16_vand_u16_vorr_u16",
    "Verif.Props.veor_u16_vmvn_u16",
    "Verif.Props.vand_u32_comm",
    "Verif.Props.vand_u32_assoc",
    "Verif.Props.vorr_u32_comm",
    "Verif.Props.vorr_u32_assoc",
    "Verif.Props.vand_u32_self",
    "Verif.Props.vorr_u32_self",
    "Verif.Props.vand_u32_zero",
    "Verif.Props.vand_u32_ones",
    "Verif.Props.vorr_u32_zero",
    "Verif.Props.vorr_u32_ones",
    "Verif.Props.vand_u32_vorr_u32_absorb",
    "Verif.Props.vorr_u32_vand_u32_absorb",
    "Verif.Props.vand_u32_vorr_u32_distrib",
    "Verif.Props.vorr_u32_vand_u32_distrib",
    "Verif.Props.vand_u32_vmvn_u32",
    "Verif.Props.vorr_u32_vmvn_u32",
    "Verif.Props.vand_u64_comm",
    "Verif.Props.vand_u64_assoc",
    "Verif.Props.vorr_u64_comm",
    "Verif.Props.vorr_u64_assoc",
    "Verif.Props.veor_u64_comm",
    "Verif.Props.veor_u64_assoc",
    "Verif.Props.vand_u64_self",
    "Verif.Props.vorr_u64_self",
    "Verif.Props.veor_u64_self",
    "Verif.Props.vand_u64_zero",
    "Verif.Props.vand_u64_ones",
    "Verif.Props.vorr_u64_zero",
    "Verif.Props.vorr_u64_ones",
    "Verif.Props.veor_u64_zero",
    "Verif.Props.vand_u64_vorr_u64_absorb",
    "Verif.Props.vorr_u64_vand_u64_absorb",
    "Verif.Props.vand_u64_vorr_u64_distrib",
    "Verif.Props.vorr_u64_vand_u64_distrib",
    "Verif.Props.vand_u64_veor_u64_distrib",
    "Verif.Props.vandq_s8_comm",
    "Verif.Props.vandq_s8_assoc",
    "Verif.Props.vorrq_s8_comm",
    "Verif.Props.vorrq_s8_assoc",
    "Verif.Props.veorq_s8_comm",
    "Verif.Props.veorq_s8_assoc",
    "Verif.Props.vandq_s8_self",
    "Verif.Props.vorrq_s8_self",
    "Verif.Props.veorq_s8_self",
    "Verif.Props.vandq_s8_zero",
    "Verif.Props.vandq_s8_ones",
    "Verif.Props.vorrq_s8_zero",
    "Verif.Props.vorrq_s8_ones",
    "Verif.Props.veorq_s8_zero",
    "Verif.Props.vandq_s8_vorrq_s8_absorb",
    "Verif.Props.vorrq_s8_vandq_s8_absorb",
    "Verif.Props.vandq_s8_vorrq_s8_distrib",
    "Verif.Props.vorrq_s8_vandq_s8_distrib",
    "Verif.Props.vandq_s8_veorq_s8_distrib",
    "Verif.Props.vandq_s8_vmvnq_s8",
    "Verif.Props.vorrq_s8_vmvnq_s8",
    "Verif.Props.veorq_s8_vandq_s8_vorrq_s8",
    "Verif.Props.veorq_s8_vmvnq_s8",
    "Verif.Props.vandq_s16_comm",
    "Verif.Props.vandq_s16_assoc",
    "Verif.Props.vorrq_s16_comm",
    "Verif.Props.vorrq_s16_assoc",
    "Verif.Props.veorq_s16_comm",
    "Verif.Props.veorq_s16_assoc",
    "Verif.Props.vandq_s16_self",
    "Verif.Props.vorrq_s16_self",
    "Verif.Props.veorq_s16_self",
    "Verif.Props.vandq_s16_zero",
    "Verif.Props.vandq_s16_ones",
    "Verif.Props.vorrq_s16_zero",
    "Verif.Props.vorrq_s16_ones",
    "Verif.Props.veorq_s16_zero",
    "Verif.Props.vandq_s16_vorrq_s16_absorb",
    "Verif.Props.vorrq_s16_vandq_s16_absorb",
    "Verif.Props.vandq_s16_vorrq_s16_distrib",
    "Verif.Props.vorrq_s16_vandq_s16_distrib",
    "Verif.Props.vandq_s16_veorq_s16_distrib",
    "Verif.Props.vandq_s16_vmvnq_s16",
    "Verif.Props.vorrq_s16_vmvnq_s16",
    "Verif.Props.veorq_s16_vandq_s16_vorrq_s16",
    "Verif.Props.veorq_s16_vmvnq_s16",
    "Verif.Props.vandq_s32_comm",
    "Verif.Props.vandq_s32_assoc",
    "Verif.Props.vorrq_s32_comm",
    "Verif.Props.vorrq_s32_assoc",
    "Verif.Props.veorq_s32_comm",
    "Verif.Props.veorq_s32_assoc",
    "Verif.Props.vandq_s32_self",
    "Verif.Props.vorrq_s32_self",
    "Verif.Props.veorq_s32_self",
    "Verif.Props.vandq_s32_zero",
    "Verif.Props.vandq_s32_ones",
    "Verif.Props.vorrq_s32_zero",
    "Verif.Props.vorrq_s32_ones",
    "Verif.Props.veorq_s32_zero",
    "Verif.Props.vandq_s32_vorrq_s32_absorb",
    "Verif.Props.vorrq_s32_vandq_s32_absorb",
    "Verif.Props.vandq_s32_vorrq_s32_distrib",
    "Verif.Props.vorrq_s32_vandq_s32_distrib",
    "Verif.Props.vandq_s32_veorq_s32_distrib",
    "Verif.Props.vandq_s32_vmvnq_s32",
    "Verif.Props.vorrq_s32_vmvnq_s32",
    "Verif.Props.veorq_s32_vandq_s32_vorrq_s32",
    "Verif.Props.veorq_s32_vmvnq_s32",
    "Verif.Props.vandq_s64_comm",
    "Verif.Props.vandq_s64_assoc",
    "Verif.Props.vorrq_s64_comm",
    "Verif.Props.vorrq_s64_assoc",
    "Verif.Props.veorq_s64_comm",
    "Verif.Props.veorq_s64_assoc",
    "Verif.Props.vandq_s64_self",
    "Verif.Props.vorrq_s64_self",
    "Verif.Props.veorq_s64_self",
    "Verif.Props.vandq_s64_zero",
    "Verif.Props.vandq_s64_ones",
    "Verif.Props.vorrq_s64_zero",
    "Verif.Props.vorrq_s64_ones",
    "Verif.Props.veorq_s64_zero",
    "Verif.Props.vandq_s64_vorrq_s64_absorb",
    "Verif.Props.vorrq_s64_vandq_s64_absorb",
    "Verif.Props.vandq_s64_vorrq_s64_distrib",
    "Verif.Props.vorrq_s64_vandq_s64_distrib",
    "Verif.Props.vandq_s64_veorq_s64_distrib",
    "Verif.Props.vandq_u8_comm",
    "Verif.Props.vandq_u8_assoc",
    "Verif.Props.vorrq_u8_comm",
    "Verif.Props.vorrq_u8_assoc",
    "Verif.Props.veorq_u8_comm",
    "Verif.Props.veorq_u8_assoc",
    "Verif.Props.vandq_u8_self",
    "Verif.Props.vorrq_u8_self",
    "Verif.Props.veorq_u8_self",
    "Verif.Props.vandq_u8_zero",
    "Verif.Props.vandq_u8_ones",
    "Verif.Props.vorrq_u8_zero",
    "Verif.Props.vorrq_u8_ones",
    "Verif.Props.veorq_u8_zero",
    "Verif.Props.vandq_u8_vorrq_u8_absorb",
    "Verif.Props.vorrq_u8_vandq_u8_absorb",
    "Verif.Props.vandq_u8_vorrq_u8_distrib",
    "Verif.Props.vorrq_u8_vandq_u8_distrib",
    "Verif.Props.vandq_u8_veorq_u8_distrib",
    "Verif.Props.vandq_u8_vmvnq_u8",
    "Verif.Props.vorrq_u8_vmvnq_u8",
    "Verif.Props.veorq_u8_vandq_u8_vorrq_u8",
    "Verif.Props.veorq_u8_vmvnq_u8",
    "Verif.Props.vandq_u16_comm",
    "Verif.Props.vandq_u16_assoc",
    "Verif.Props.vorrq_u16_comm",
    "Verif.Props.vorrq_u16_assoc",
    "Verif.Props.veorq_u16_comm",
    "Verif.Props.veorq_u16_assoc",
    "Verif.Props.vandq_u16_self",
    "Verif.Props.vorrq_u16_self",
    "Verif.Props.veorq_u16_self",
    "Verif.Props.vandq_u16_zero",
    "Verif.Props.vandq_u16_ones",
    "Verif.Props.vorrq_u16_zero",
    "Verif.Props.vorrq_u16_ones",
    "Verif.Props.veorq_u16_zero",
    "Verif.Props.vandq_u16_vorrq_u16_absorb",
    "Verif.Props.vorrq_u16_vandq_u16_absorb",
    "Verif.Props.vandq_u16_vorrq_u16_distrib",
    "Verif.Props.vorrq_u16_vandq_u16_distrib",
    "Verif.Props.vandq_u16_veorq_u16_distrib",
    "Verif.Props.vandq_u16_vmvnq_u16",
    "Verif.Props.vorrq_u16_vmvnq_u16",
    "Verif.Props.veorq_u16_vandq_u16_vorrq_u16",
    "Verif.Props.veorq_u16_vmvnq_u16",
    "Verif.Props.vandq_u32_comm",
    "Verif.Props.vandq_u32_assoc",
    "Verif.Props.vorrq_u32_comm",
    "Verif.Props.vorrq_u32_assoc",
    "Verif.Props.veorq_u32_comm",
    "Verif.Props.veorq_u32_assoc",
    "Verif.Props.vandq_u32_self",
    "Verif.Props.vorrq_u32_self",
    "Verif.Props.veorq_u32_self",
    "Verif.Props.vandq_u32_zero",
    "Verif.Props.vandq_u32_ones",
    "Verif.Props.vorrq_u32_zero",
    "Verif.Props.vorrq_u32_ones",
    "Verif.Props.veorq_u32_zero",
    "Verif.Props.vandq_u32_vorrq_u32_absorb",
    "Verif.Props.vorrq_u32_vandq_u32_absorb",
    "Verif.Props.vandq_u32_vorrq_u32_distrib",
    "Verif.Props.vorrq_u32_vandq_u32_distrib",
    "Verif.Props.vandq_u32_veorq_u32_distrib",
    "Verif.Props.vandq_u32_vmvnq_u32",
    "Verif.Props.vorrq_u32_vmvnq_u32",
    "Verif.Props.veorq_u32_vandq_u32_vorrq_u32",
    "Verif.Props.veorq_u32_vmvnq_u32",
    "Verif.Props.vandq_u64_comm",
    "Verif.Props.vandq_u64_assoc",
    "Verif.Props.vorrq_u64_comm",
    "Verif.Props.vorrq_u64_assoc",
    "Verif.Props.veorq_u64_comm",
    "Verif.Props.veorq_u64_assoc",
    "Verif.Props.vandq_u64_self",
    "Verif.Props.vorrq_u64_self",
    "Verif.Props.veorq_u64_self",
    "Verif.Props.vandq_u64_zero",
    "Verif.Props.vandq_u64_ones",
    "Verif.Props.vorrq_u64_zero",
    "Verif.Props.vorrq_u64_ones",
    "Verif.Props.veorq_u64_zero",
    "Verif.Props.vandq_u64_vorrq_u64_absorb",
    "Verif.Props.vorrq_u64_vandq_u64_absorb",
    "Verif.Props.vandq_u64_vorrq_u64_distrib",
    "Verif.Props.vorrq_u64_vandq_u64_distrib",
    "Verif.Props.vandq_u64_veorq_u64_distrib",
    "Verif.Props.vbslq_u8_vandq_vorrq",
    "Verif.Props.vbslq_u8_mvn",
    "Verif.Props.vbslq_u8_self",
    "Verif.Props.vbslq_u8_veorq"
   ],
   "note": "For the 16 integer register types; veor_u32 (64-bit) and vmvn of 64-bit lanes are not defined in the code, and the laws that need them are left out."
  },
  {
   "property": "C86",
   "status": "proved",
   "theorems": [
    "Verif.Props.vext_u8_window",
    "Verif.Props.vext_u8_zero",
    "Verif.Props.vext_u8_low",
    "Verif.Props.vext_u8_high",
    "Verif.Props.vext_u8_rotate",
    "Verif.Props.vext_u8_swap",
    "Verif.Props.vext_u16_window",
    "Verif.Props.vext_u16_zero",
    "Verif.Props.vext_u16_low",
    "Verif.Props.vext_u16_high",
    "Verif.Props.vext_u16_rotate",
    "Verif.Props.vext_u16_swap",
    "Verif.Props.vext_s16_window",
    "Verif.Props.vext_s16_zero",
    "Verif.Props.vext_s16_low",
    "Verif.Props.vext_s16_high",
    "Verif.Props.vext_s16_rotate",
    "Verif.Props.vext_s16_swap",
    "Verif.Props.vextq_u16_window",
    "Verif.Props.vextq_u16_zero",
    "Verif.Props.vextq_u16_low",
    "Verif.Props.vextq_u16_high",
    "Verif.Props.vextq_u16_rotate",
    "Verif.Props.vextq_u16_swap",
    "Verif.Props.vzip_u8_order",
    "Verif.Props.vzip_s8_order",
    "Verif.Props.vzip_s16_order",
    "Verif.Props.vuzp_u8_order",
    "Verif.Props.vuzp_s8_order",
    "Verif.Props.vrev16_u8_vrev32_u8_comm",
    "Verif.Props.vrev16_u8_vrev64_u8_comm",
    "Verif.Props.vrev32_u8_vrev64_u8_comm",
    "Verif.Props.vrev32_u16_vrev64_u16_comm",
    "Verif.Props.vrev32_s16_vrev64_s16_comm",
    "Verif.Props.vrev16_s8_vrev64_s8_comm",
    "Verif.Props.vrev16q_u8_vrev32q_u8_comm",
    "Verif.Props.vrev16q_u8_vrev64q_u8_comm",
    "Verif.Props.vrev32q_u8_vrev64q_u8_comm",
    "Verif.Props.vrev32q_u16_vrev64q_u16_comm",
    "Verif.Props.vrev16q_s8_vrev32q_s8_comm",
    "Verif.Props.vtbl1_u8_assoc",
    "Verif.Props.vtbl1_u8_id",
    "Verif.Props.vtbl1_u8_inverse",
    "Verif.Props.vtbl1_u8_vrev64_u8",
    "Verif.Props.vtbl2_u8_vext_u8",
    "Verif.Props.vtbl2_u8_vtbl1_u8",
    "Verif.Props.vtbl4_u8_vtbl2_u8",
    "Verif.Props.vextq_u16_halves"
   ],
   "note": "For every vext, vzip, vuzp and vtbl1/2/4 of the code."
  },
  {
   "property": "C87",
   "status": "proved",
   "theorems": [
    "Verif.Props.vcvtq_s32_f32_vcvtq_f32_s32",
    "Verif.Props.vcvtq_f32_s32_vcvtq_s32_f32",
    "Verif.Props.vcvtq_f32_s32_mono",
    "Verif.Props.vcvtq_f32_s32_error"
   ],
   "note": ""
  },
  {
   "property": "C88",
   "status": "proved",
   "theorems": [
    "Verif.Props.sortRegs_spec",
    "Verif.Props.sort_s8",
    "Verif.Props.sort_s16",
    "Verif.Props.sort_s32",
    "Verif.Props.sort_u8",
    "Verif.Props.sort_u8_wrong"
   ],
   "note": "`sort_u8_wrong` shows that vmaxq_u8 and vminq_u8 do not sort unsigned bytes."
  },
  {
   "property": "C89",
   "status": "proved",
   "theorems": [
    "Verif.Props.scan8_spec",
    "Verif.Props.prefix_sum",
    "Verif.Props.prefix_sum_exact"
   ],
   "note": ""
  },
  {
   "property": "C90",
   "status": "proved",
   "theorems": [
    "Verif.Props.fir8_spec",
    "Verif.Props.fir_filter",
    "Verif.Props.blend8_spec",
    "Verif.Props.blend8_between",
    "Verif.Props.blend_image"
   ],
   "note": ""
  },
  {
   "property": "C91",
   "status": "proved",
   "theorems": [
    "Verif.Props.lut8_spec",
    "Verif.Props.lut_bytes",
    "Verif.Props.swap_words",
    "Verif.Props.threshold_bytes",
    "Verif.Props.fill_bytes",
    "Verif.Props.move_down",
    "Verif.Props.move_up_wrong",
    "Verif.Props.move_up"
   ],
   "note": ""
  },
  {
   "property": "C92",
   "status": "proved",
   "theorems": [
    "Verif.Props.divide1_error",
    "Verif.Props.divide_array",
    "Verif.Props.polyAt_eq",
    "Verif.Props.horner_error",
    "Verif.Props.matVec_error",
    "Verif.Props.max_accumulate",
    "Verif.Props.min_accumulate"
   ],
   "note": ""
  },
  {
   "property": "C93",
   "status": "proved",
   "theorems": [
    "Verif.Props.promotion_rule",
    "Verif.Props.common_type_rule",
    "Verif.Props.conversion_rule",
    "Verif.Props.add_rule",
    "Verif.Props.sub_rule",
    "Verif.Props.mul_rule",
    "Verif.Props.div_rule",
    "Verif.Props.mod_rule",
    "Verif.Props.shr_rule",
    "Verif.Props.shl_rule",
    "Verif.Props.float_operand_rule",
    "Verif.Props.float_to_int_rule",
    "Verif.Props.bitop_rule",
    "Verif.Props.and_rule",
    "Verif.Props.or_rule",
    "Verif.Props.xor_rule",
    "Verif.Props.not_rule",
    "Verif.Props.comparison_rule",
    "Verif.Props.truth_rule",
    "Verif.Props.cast_rule",
    "Verif.Props.min_max_rule",
    "Verif.Props.object_value",
    "Verif.Props.assign_value",
    "Verif.Props.short_circuit",
    "Verif.Props.lane_assignment",
    "Verif.Props.lane_undefined",
    "Verif.Props.element_assignment",
    "Verif.Props.element_undefined",
    "Verif.Props.memcpy_rule"
   ],
   "note": "The rules are those of Verif/SpecCpp.lean, written from the standard. Conversion of an out-of-range value to a signed type and >> of negative numbers, which C++11 leaves to the implementation, are as GCC and Clang document them."
  },
  {
   "property": "C94",
   "status": "proved",
   "theorems": [
    "Verif.Props.exec_upto",
    "Verif.Props.calls_upto",
    "Verif.Props.run_steps",
    "Verif.Props.unit_steps",
    "Verif.Props.runs_iff",
    "Verif.Props.yields_binary",
    "Verif.Props.expression_types",
    "Verif.Props.statement_types",
    "Verif.Props.scope_ends",
    "Verif.Props.function_types",
    "Verif.Props.unit_calls_typed",
    "Verif.Props.unit_function_types",
    "Verif.Props.library_fits",
    "Verif.Props.called_types",
    "Verif.Props.arguments_typed"
   ],
   "note": ""
  },
  {
   "property": "C95",
   "status": "proved",
   "theorems": [
    "Verif.Props.tokenize_sound",
    "Verif.Props.lexes_unique",
    "Verif.Props.tokenize_exact",
    "Verif.Props.expr_exact",
    "Verif.Props.derives_unique",
    "Verif.Props.parse_derives",
    "Verif.Props.parseUnit_derives",
    "Verif.Props.func_exact",
    "Verif.Props.function_unique",
    "Verif.Props.unit_exact",
    "Verif.Props.definitions_unique",
    "Verif.Props.parse_exact",
    "Verif.Props.parseUnit_exact",
    "Verif.Props.library_grammar",
    "Verif.Props.chain_only",
    "Verif.Props.dangling_else",
    "Verif.Props.not_read"
   ],
   "note": "The lexical rules are Verif/SpecLex.lean, the grammar is Verif/SpecGrammar.lean; both are written from the standard for the subset that neon_sim.cpp uses. Texts outside the subset (octal literals, suffixes, other operators) are rejected, not misread."
  },
  {
   "property": "C96",
   "status": "proved",
   "theorems": [
    "Verif.Props.library_machine",
    "Verif.Props.called_det",
    "Verif.Props.run_machine",
    "Verif.Props.unit_machine",
    "Verif.Props.library_wellFormed",
    "Verif.Props.text_machine",
    "Verif.Props.text_unit_machine",
    "Verif.Props.vadd_s8_bytes",
    "Verif.Props.vadd_s32_undefined",
    "Verif.Props.vadd_s32_wraps",
    "Verif.Props.vext_s16_message",
    "Verif.Props.vst1_u8_bytes"
   ],
   "note": "The machine is Verif/SpecExec.lean, relations written from the standard for the subset; it shares no function with the interpreter. `library_machine`: in every order of evaluation of operands there is one outcome, and it is the one of the model (`Shows`, Verif/SpecCall.lean), or the behaviour is undefined in every order (`Alike`). Simplifications: the arguments of a call inside a program are evaluated from left to right; storage is not reused; two pointer arguments do not share a block; the NaN of an operation is an unknown function of it and its operands; of the formats of fprintf only those with no conversion or one %s."
  },
  {
   "property": "C97",
   "status": "proved",
   "theorems": [
    "Verif.Props.eval_sane",
    "Verif.Props.store_sane",
    "Verif.Props.exec_sane",
    "Verif.Props.returns_sound",
    "Verif.Props.function_safe",
    "Verif.Props.pass_sane",
    "Verif.Props.copyBack_sane",
    "Verif.Props.definition_sane",
    "Verif.Props.unit_calls_sane",
    "Verif.Props.unit_safe",
    "Verif.Props.recip_unit",
    "Verif.Props.recip_safe",
    "Verif.Props.library_checked"
   ],
   "note": "The rules are Verif/SpecType.lean: function_safe for functions that call no other, unit_safe for units whose functions, constructors and conversion functions call each other, and library_checked and recip_unit for the file."
  },
  {
   "property": "C98",
   "status": "partial",
   "theorems": [
    "Verif.Props.filter_total",
    "Verif.Props.filter_sound",
    "Verif.Props.filter_none",
    "Verif.Props.filter_plain",
    "Verif.Props.filter_prefix",
    "Verif.Props.filter_infix_partial",
    "Verif.Props.filter_listed",
    "Verif.Props.filter_set",
    "Verif.Props.filter_name",
    "Verif.Props.filter_end_wrong",
    "Verif.Props.filter_back_wrong",
    "Verif.Props.filter_last_wrong"
   ],
   "note": "A name that does not match is never run (filter_sound), and the usual patterns select all they should. False of the code: * at the end does not match the empty rest, and the text after a * is compared without going back, so *ab leaves out aab and abab; such tests are silently not run. filter_infix_partial is what holds of *text."
  },
  {
   "property": "C99",
   "status": "proved",
   "theorems": [
    "Verif.Props.runs_or_dies",
    "Verif.Props.runs_names",
    "Verif.Props.results_unique",
    "Verif.Props.inOrder_perm",
    "Verif.Props.main_total",
    "Verif.Props.main_in_order",
    "Verif.Props.main_seed",
    "Verif.Props.isOption_spec",
    "Verif.Props.parse_all",
    "Verif.Props.main_help",
    "Verif.Props.main_list",
    "Verif.Props.shuffle_perm",
    "Verif.Props.shuffle_order",
    "Verif.Props.shuffle_huge_wrong"
   ],
   "note": "For fewer than 2^32 tests (with 2^32 of them the shuffle divides by zero, shuffle_huge_wrong) and tests that UTEST or UTEST_I registered; the index of a test registered by UTEST_F is read uninitialised (fixture_index_wrong, C101)."
  },
  {
   "property": "C100",
   "status": "partial",
   "theorems": [
    "Verif.Props.main_report",
    "Verif.Props.main_total",
    "Verif.Props.exit_zero",
    "Verif.Props.exit_status_partial",
    "Verif.Props.exit_status_wrong",
    "Verif.Props.xml_exception_wrong",
    "Verif.Props.xml_verdict_wrong",
    "Verif.Props.main_mixed_wrong",
    "Verif.Props.units_spec",
    "Verif.Props.showTime_ok"
   ],
   "note": "The report is exact (main_report). False of the code: the operating system keeps 8 bits of the exit status, so 256 failures look like success (exit_status_wrong; right below 256 failures, exit_status_partial); the XML file has neither verdicts nor exceptions; with --enable-mixed-units a test of 10^13 ns or more passes a null pointer to printf."
  },
  {
   "property": "C101",
   "status": "partial",
   "theorems": [
    "Verif.Props.test_passes",
    "Verif.Props.test_fails_partial",
    "Verif.Props.test_skips",
    "Verif.Props.test_throws",
    "Verif.Props.test_passes_iff",
    "Verif.Props.skip_hides_wrong",
    "Verif.Props.check_twice_wrong",
    "Verif.Props.check_once",
    "Verif.Props.fixture_setup",
    "Verif.Props.fixture_body",
    "Verif.Props.fixture_throw_wrong",
    "Verif.Props.register_eq",
    "Verif.Props.registerI_eq",
    "Verif.Props.registerI_distinct",
    "Verif.Props.fixture_index_wrong",
    "Verif.Props.near_fails_iff",
    "Verif.Props.near_nan",
    "Verif.Props.near_close",
    "Verif.Props.near_passes_partial",
    "Verif.Props.near_zero",
    "Verif.Props.near_negative",
    "Verif.Props.near_comm",
    "Verif.Props.near_rounding_wrong",
    "Verif.Props.near_inf_wrong",
    "Verif.Props.near_nan_eps_wrong"
   ],
   "note": "test_passes_iff is the first sentence in full. False of the code: a skip after a failed check hides the failure, a failing EXPECT_TRUE evaluates its argument twice, an exception in a test skips the tear-down, UTEST_F leaves the index uninitialised, EXPECT_NEAR rejects equal infinities, accepts everything with a NaN tolerance, and rounds the difference before comparing. The checks of strings are C102, the numbers of evaluations C105."
  },
  {
   "property": "C102",
   "status": "partial",
   "theorems": [
    "Verif.Props.strncmp_zero",
    "Verif.Props.strcmp_zero",
    "Verif.Props.strcmp_bound",
    "Verif.Props.streq_spec",
    "Verif.Props.strne_spec",
    "Verif.Props.strneq_passes",
    "Verif.Props.strnne_passes",
    "Verif.Props.strneq_text_partial",
    "Verif.Props.strneq_text_wrong",
    "Verif.Props.str_null",
    "Verif.Props.str_null_wrong",
    "Verif.Props.text_stmt",
    "Verif.Props.exception_passes",
    "Verif.Props.exception_state",
    "Verif.Props.exception_text",
    "Verif.Props.printf0_spec",
    "Verif.Props.compare_text_partial",
    "Verif.Props.compare_text_wrong"
   ],
   "note": "The verdicts on strings and exceptions are right in full. False of the code: a null pointer is printed with %s, which is undefined, so instead of a failure anything may happen (str_null_wrong); n is cast to int for the message (strneq_text_wrong; right below 2^31, strneq_text_partial); the text of the arguments of EXPECT_EQ is used as a format, so a % in it is undefined when the check fails (compare_text_wrong; right without %, compare_text_partial)."
  },
  {
   "property": "C103",
   "status": "partial",
   "theorems": [
    "Verif.Props.num_decimal",
    "Verif.Props.decimal_inj",
    "Verif.Props.fixed_spec",
    "Verif.Props.printer_spec",
    "Verif.Props.printer_int_inj",
    "Verif.Props.compare_partial",
    "Verif.Props.compare_same_sign",
    "Verif.Props.compare_signs_wrong",
    "Verif.Props.compare_float_wrong",
    "Verif.Props.compare_check_partial",
    "Verif.Props.compare_blind_wrong"
   ],
   "note": "Right for integers of one signedness, for floating-point numbers, and whenever the common type represents both numbers (compare_partial). False of the code: a negative number is compared with an unsigned one modulo 2^32 or 2^64 (compare_signs_wrong), a large integer is rounded before it is compared with a float (compare_float_wrong). Every number is printed as promised (printer_spec), different integers differently (printer_int_inj); different floating-point numbers may be printed alike (compare_blind_wrong). long double and pointers are not modelled."
  },
  {
   "property": "C104",
   "status": "proved",
   "theorems": [
    "Verif.Props.suite_checks",
    "Verif.Props.suite_count",
    "Verif.Props.suite_names",
    "Verif.Props.suite_distinct",
    "Verif.Props.suite_passes",
    "Verif.Props.suite_all"
   ],
   "note": "The 46 tests as programs over the model of the intrinsics, of almostEqual (C81) and of the test runner (C98 to C103). main of the test program is UTEST_MAIN alone. Assumes the clock of C100 (times fit 64 bits; no test takes 10000 seconds with mixed units)."
  },
  {
   "property": "C105",
   "status": "partial",
   "theorems": [
    "Verif.Props.compare_once",
    "Verif.Props.truth_evals",
    "Verif.Props.truth_agrees",
    "Verif.Props.truth_texts_wrong",
    "Verif.Props.str_evals",
    "Verif.Props.str_effects_partial",
    "Verif.Props.streq_effects_wrong",
    "Verif.Props.near_evals",
    "Verif.Props.near_text",
    "Verif.Props.near_blind_wrong",
    "Verif.Props.near_effects_wrong"
   ],
   "note": "True of EXPECT_EQ and the like (compare_once). EXPECT_TRUE, EXPECT_FALSE and EXPECT_NEAR judge the first evaluation, but a failure evaluates the arguments again for standard output and once more for the file (truth_evals, near_evals), which can contradict each other (truth_texts_wrong, near_effects_wrong). The checks of strings evaluate both arguments twice even if they pass (str_evals) and judge the second values (streq_effects_wrong); right if the values do not change, whatever happens to the state (str_effects_partial)."
  },
  {
   "property": "C106",
   "status": "partial",
   "theorems": [
    "Verif.Props.general_spec",
    "Verif.Props.sixDigits_close",
    "Verif.Props.sixDigits_unique",
    "Verif.Props.general_alike",
    "Verif.Props.put_f32x2_text",
    "Verif.Props.put_f32x4_text",
    "Verif.Props.put_f64x1_text",
    "Verif.Props.put_f64x2_text",
    "Verif.Props.put_f32x2_alike",
    "Verif.Props.put_f32x4_alike",
    "Verif.Props.put_f64x1_alike",
    "Verif.Props.put_f64x2_alike",
    "Verif.Props.put_f32x4_blind_wrong",
    "Verif.Props.general_int",
    "Verif.Props.report_text",
    "Verif.Props.report_blind_wrong"
   ],
   "note": "All but the last clause. Float registers that differ can be printed alike (put_f32x4_blind_wrong); those printed alike have lanes of the same sign within 10^-5 of each other (put_*_alike). The four single float registers are stated; the operators of arrays of them write these, line by line (C82)."
  },
  {
   "property": "C107",
   "status": "partial",
   "theorems": [
    "Verif.Props.scalar_int",
    "Verif.Props.scalar_int_float",
    "Verif.Props.scalar_f32_int",
    "Verif.Props.scalar_f64_int",
    "Verif.Props.scalar_float",
    "Verif.Props.scalar_f32_double",
    "Verif.Props.init_vec",
    "Verif.Props.init_vec_int",
    "Verif.Props.init_vec_double",
    "Verif.Props.init_get",
    "Verif.Props.init_arr",
    "Verif.Props.init_arr_nested",
    "Verif.Props.init_arr_registers",
    "Verif.Props.init_arr_two_wrong",
    "Verif.Props.init_copy",
    "Verif.Props.init_other_wrong",
    "Verif.Props.header_distinct"
   ],
   "note": "All but the last clause: register types are structures, so a register of another type is rejected whatever its length (init_other_wrong), and no flag changes that. Two lists in one pair of braces do not initialize an array of two registers (init_arr_two_wrong): the array needs its own. The rules are those of the standard, by hand; compilers may only warn of a variable that narrows."
  },
  {
   "property": "C108",
   "status": "partial",
   "theorems": [
    "Verif.Props.check_spec",
    "Verif.Props.call_param",
    "Verif.Props.call_register",
    "Verif.Props.call_count",
    "Verif.Props.named_unique",
    "Verif.Props.header_pointers",
    "Verif.Props.call_pointer",
    "Verif.Props.call_const",
    "Verif.Props.header_names",
    "Verif.Props.call_named",
    "Verif.Props.call_scalar_wrong",
    "Verif.Props.call_null_wrong",
    "Verif.Props.call_length_wrong",
    "Verif.Props.readme_example"
   ],
   "note": "Over all 1944 declarations that are read from the text of the header (C65). All but the last sentence, which is false: any arithmetic type is accepted for any other (call_scalar_wrong; README.md says so of a lane index), a null pointer and an array of any length are accepted (call_null_wrong, call_length_wrong, readme_example)."
  },
  {
   "property": "C109",
   "status": "partial",
   "theorems": [
    "Verif.Props.eval_bind",
    "Verif.Props.eval_value",
    "Verif.Props.scope_compare_partial",
    "Verif.Props.scope_compare_values_partial",
    "Verif.Props.scope_compare_rejected",
    "Verif.Props.scope_compare_wrong",
    "Verif.Props.scope_near_partial",
    "Verif.Props.scope_near_values_partial",
    "Verif.Props.scope_near_wrong",
    "Verif.Props.scope_near_self_wrong",
    "Verif.Props.scope_exception_partial",
    "Verif.Props.scope_exception_wrong"
   ],
   "note": "Holds of arguments without the names that the macros declare (xEval, yEval, diff, exception_caught). With them it is false: a comparison with a variable xEval passes whatever it holds (scope_compare_wrong), so does a tolerance named diff (scope_near_wrong), a number named diff is read before it has a value (scope_near_self_wrong), and a statement may set exception_caught (scope_exception_wrong); only a name in its own initializer is rejected (scope_compare_rejected)."
  },
  {
   "property": "C110",
   "status": "partial",
   "theorems": [
    "Verif.Props.clock_reading",
    "Verif.Props.clock_2262",
    "Verif.Props.clock_overflow_wrong",
    "Verif.Props.clock_ansi_partial",
    "Verif.Props.clock_ansi_wrong",
    "Verif.Props.clock_ansi_wrap_wrong",
    "Verif.Props.test_time",
    "Verif.Props.test_time_pos",
    "Verif.Props.test_time_wrong",
    "Verif.Props.seed_eq",
    "Verif.Props.seed_fresh_partial",
    "Verif.Props.seed_wrong"
   ],
   "note": "On Linux. Exact until 2262 while the clock of the system goes on; it is the clock of the day, so a time is negative when that is set back (test_time_wrong), and the reading overflows in 2262 (clock_overflow_wrong). Built as strict C++11 (not what CMakeLists.txt asks for) the clock is the processor time and overflows after 2 hours and 33 minutes (clock_ansi_partial, clock_ansi_wrong). Seeds differ for starts less than 4.29 seconds apart (seed_fresh_partial), not always (seed_wrong)."
  },
  {
   "property": "C111",
   "status": "proved",
   "theorems": [
    "Verif.Props.transpose8_spec",
    "Verif.Props.transpose_image",
    "Verif.Props.transpose_image_twice"
   ],
   "note": "Client code over the model of the intrinsics; source and destination are different buffers."
  },
  {
   "property": "C112",
   "status": "proved",
   "theorems": [
    "Verif.Props.mirror_bytes",
    "Verif.Props.mirror_twice"
   ],
   "note": "Client code over the model of the intrinsics; source and destination are different buffers."
  }
 ]
}