import Verif.Core

/-! # Scalar and register types of `neon_sim.h` (generated by `tools/translate.py`).
`float16` types are not modelled. -/

namespace Verif

abbrev int8_t := BitVec (Elem.bits .s8)
abbrev uint8_t := BitVec (Elem.bits .u8)
abbrev int16_t := BitVec (Elem.bits .s16)
abbrev uint16_t := BitVec (Elem.bits .u16)
abbrev int32_t := BitVec (Elem.bits .s32)
abbrev uint32_t := BitVec (Elem.bits .u32)
abbrev int64_t := BitVec (Elem.bits .s64)
abbrev uint64_t := BitVec (Elem.bits .u64)
abbrev float32_t := BitVec (Elem.bits .f32)
abbrev float64_t := BitVec (Elem.bits .f64)

/-- `neon_sim.h:21-23` -/
abbrev int8x8_t := Vec .s8 8
/-- `neon_sim.h:25-27` -/
abbrev int16x4_t := Vec .s16 4
/-- `neon_sim.h:29-31` -/
abbrev int32x2_t := Vec .s32 2
/-- `neon_sim.h:33-35` -/
abbrev int64x1_t := Vec .s64 1
/-- `neon_sim.h:39-41` -/
abbrev uint8x8_t := Vec .u8 8
/-- `neon_sim.h:43-45` -/
abbrev uint16x4_t := Vec .u16 4
/-- `neon_sim.h:47-49` -/
abbrev uint32x2_t := Vec .u32 2
/-- `neon_sim.h:51-53` -/
abbrev uint64x1_t := Vec .u64 1
/-- `neon_sim.h:62-64` -/
abbrev float32x2_t := Vec .f32 2
/-- `neon_sim.h:66-68` -/
abbrev float64x1_t := Vec .f64 1
/-- `neon_sim.h:72-74` -/
abbrev int8x16_t := Vec .s8 16
/-- `neon_sim.h:76-78` -/
abbrev int16x8_t := Vec .s16 8
/-- `neon_sim.h:80-82` -/
abbrev int32x4_t := Vec .s32 4
/-- `neon_sim.h:84-86` -/
abbrev int64x2_t := Vec .s64 2
/-- `neon_sim.h:89-91` -/
abbrev uint8x16_t := Vec .u8 16
/-- `neon_sim.h:93-95` -/
abbrev uint16x8_t := Vec .u16 8
/-- `neon_sim.h:97-99` -/
abbrev uint32x4_t := Vec .u32 4
/-- `neon_sim.h:101-103` -/
abbrev uint64x2_t := Vec .u64 2
/-- `neon_sim.h:111-113` -/
abbrev float32x4_t := Vec .f32 4
/-- `neon_sim.h:115-117` -/
abbrev float64x2_t := Vec .f64 2
/-- `neon_sim.h:122-125` -/
abbrev int8x8x2_t := VecArr .s8 8 2
/-- `neon_sim.h:127-130` -/
abbrev int8x16x2_t := VecArr .s8 16 2
/-- `neon_sim.h:132-135` -/
abbrev int16x4x2_t := VecArr .s16 4 2
/-- `neon_sim.h:137-140` -/
abbrev int16x8x2_t := VecArr .s16 8 2
/-- `neon_sim.h:142-145` -/
abbrev int32x2x2_t := VecArr .s32 2 2
/-- `neon_sim.h:147-150` -/
abbrev int32x4x2_t := VecArr .s32 4 2
/-- `neon_sim.h:152-155` -/
abbrev int64x1x2_t := VecArr .s64 1 2
/-- `neon_sim.h:157-160` -/
abbrev int64x2x2_t := VecArr .s64 2 2
/-- `neon_sim.h:162-165` -/
abbrev uint8x8x2_t := VecArr .u8 8 2
/-- `neon_sim.h:167-170` -/
abbrev uint8x16x2_t := VecArr .u8 16 2
/-- `neon_sim.h:172-175` -/
abbrev uint16x4x2_t := VecArr .u16 4 2
/-- `neon_sim.h:177-180` -/
abbrev uint16x8x2_t := VecArr .u16 8 2
/-- `neon_sim.h:182-185` -/
abbrev uint32x2x2_t := VecArr .u32 2 2
/-- `neon_sim.h:187-190` -/
abbrev uint32x4x2_t := VecArr .u32 4 2
/-- `neon_sim.h:192-195` -/
abbrev uint64x1x2_t := VecArr .u64 1 2
/-- `neon_sim.h:197-200` -/
abbrev uint64x2x2_t := VecArr .u64 2 2
/-- `neon_sim.h:214-217` -/
abbrev float32x2x2_t := VecArr .f32 2 2
/-- `neon_sim.h:219-222` -/
abbrev float32x4x2_t := VecArr .f32 4 2
/-- `neon_sim.h:225-228` -/
abbrev float64x1x2_t := VecArr .f64 1 2
/-- `neon_sim.h:230-233` -/
abbrev float64x2x2_t := VecArr .f64 2 2
/-- `neon_sim.h:237-240` -/
abbrev int8x8x3_t := VecArr .s8 8 3
/-- `neon_sim.h:242-245` -/
abbrev int8x16x3_t := VecArr .s8 16 3
/-- `neon_sim.h:247-250` -/
abbrev int16x4x3_t := VecArr .s16 4 3
/-- `neon_sim.h:252-255` -/
abbrev int16x8x3_t := VecArr .s16 8 3
/-- `neon_sim.h:257-260` -/
abbrev int32x2x3_t := VecArr .s32 2 3
/-- `neon_sim.h:262-265` -/
abbrev int32x4x3_t := VecArr .s32 4 3
/-- `neon_sim.h:267-270` -/
abbrev int64x1x3_t := VecArr .s64 1 3
/-- `neon_sim.h:272-275` -/
abbrev int64x2x3_t := VecArr .s64 2 3
/-- `neon_sim.h:277-280` -/
abbrev uint8x8x3_t := VecArr .u8 8 3
/-- `neon_sim.h:282-285` -/
abbrev uint8x16x3_t := VecArr .u8 16 3
/-- `neon_sim.h:287-290` -/
abbrev uint16x4x3_t := VecArr .u16 4 3
/-- `neon_sim.h:292-295` -/
abbrev uint16x8x3_t := VecArr .u16 8 3
/-- `neon_sim.h:297-300` -/
abbrev uint32x2x3_t := VecArr .u32 2 3
/-- `neon_sim.h:302-305` -/
abbrev uint32x4x3_t := VecArr .u32 4 3
/-- `neon_sim.h:307-310` -/
abbrev uint64x1x3_t := VecArr .u64 1 3
/-- `neon_sim.h:312-315` -/
abbrev uint64x2x3_t := VecArr .u64 2 3
/-- `neon_sim.h:329-332` -/
abbrev float32x2x3_t := VecArr .f32 2 3
/-- `neon_sim.h:334-337` -/
abbrev float32x4x3_t := VecArr .f32 4 3
/-- `neon_sim.h:340-343` -/
abbrev float64x1x3_t := VecArr .f64 1 3
/-- `neon_sim.h:345-348` -/
abbrev float64x2x3_t := VecArr .f64 2 3
/-- `neon_sim.h:352-355` -/
abbrev int8x8x4_t := VecArr .s8 8 4
/-- `neon_sim.h:357-360` -/
abbrev int8x16x4_t := VecArr .s8 16 4
/-- `neon_sim.h:362-365` -/
abbrev int16x4x4_t := VecArr .s16 4 4
/-- `neon_sim.h:367-370` -/
abbrev int16x8x4_t := VecArr .s16 8 4
/-- `neon_sim.h:372-375` -/
abbrev int32x2x4_t := VecArr .s32 2 4
/-- `neon_sim.h:377-380` -/
abbrev int32x4x4_t := VecArr .s32 4 4
/-- `neon_sim.h:382-385` -/
abbrev int64x1x4_t := VecArr .s64 1 4
/-- `neon_sim.h:387-390` -/
abbrev int64x2x4_t := VecArr .s64 2 4
/-- `neon_sim.h:392-395` -/
abbrev uint8x8x4_t := VecArr .u8 8 4
/-- `neon_sim.h:397-400` -/
abbrev uint8x16x4_t := VecArr .u8 16 4
/-- `neon_sim.h:402-405` -/
abbrev uint16x4x4_t := VecArr .u16 4 4
/-- `neon_sim.h:407-410` -/
abbrev uint16x8x4_t := VecArr .u16 8 4
/-- `neon_sim.h:412-415` -/
abbrev uint32x2x4_t := VecArr .u32 2 4
/-- `neon_sim.h:417-420` -/
abbrev uint32x4x4_t := VecArr .u32 4 4
/-- `neon_sim.h:422-425` -/
abbrev uint64x1x4_t := VecArr .u64 1 4
/-- `neon_sim.h:427-430` -/
abbrev uint64x2x4_t := VecArr .u64 2 4
/-- `neon_sim.h:444-447` -/
abbrev float32x2x4_t := VecArr .f32 2 4
/-- `neon_sim.h:449-452` -/
abbrev float32x4x4_t := VecArr .f32 4 4
/-- `neon_sim.h:455-458` -/
abbrev float64x1x4_t := VecArr .f64 1 4
/-- `neon_sim.h:460-463` -/
abbrev float64x2x4_t := VecArr .f64 2 4

end Verif
