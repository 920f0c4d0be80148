import Verif.Props.Probes

/-!
# The reference tables contain the values of the specification

Evaluated by the kernel, all 81 values of all 10 tables.
-/

namespace T1ha.Model

theorem values_2atonce : PassesAll Checked.t1ha2_atonce.answer Ref.t1ha_refval_2atonce := by
  unfold PassesAll; decide +kernel

theorem values_2atonce128 : PassesAll Checked.thunk_atonce128.answer Ref.t1ha_refval_2atonce128 := by
  unfold PassesAll; decide +kernel

theorem values_2stream : PassesAll Checked.thunk_stream.answer Ref.t1ha_refval_2stream := by
  unfold PassesAll; decide +kernel

theorem values_2stream128 : PassesAll Checked.thunk_stream128.answer Ref.t1ha_refval_2stream128 := by
  unfold PassesAll; decide +kernel

theorem values_64le : PassesAll Checked.t1ha1_le.answer Ref.t1ha_refval_64le := by
  unfold PassesAll; decide +kernel

theorem values_64be : PassesAll Checked.t1ha1_be.answer Ref.t1ha_refval_64be := by
  unfold PassesAll; decide +kernel

theorem values_32le : PassesAll Checked.t1ha0_32le.answer Ref.t1ha_refval_32le := by
  unfold PassesAll; decide +kernel

theorem values_32be : PassesAll Checked.t1ha0_32be.answer Ref.t1ha_refval_32be := by
  unfold PassesAll; decide +kernel

theorem values_ia32aes_a : PassesAll Checked.t1ha0_ia32aes_noavx.answer Ref.t1ha_refval_ia32aes_a := by
  unfold PassesAll; decide +kernel

theorem values_ia32aes_b : PassesAll Checked.t1ha0_ia32aes_avx2.answer Ref.t1ha_refval_ia32aes_b := by
  unfold PassesAll; decide +kernel

theorem values (f : Checked) : PassesAll f.answer f.table.values := by
  cases f
  · exact values_2atonce
  · exact values_2atonce128
  · exact values_2stream
  · exact values_2stream128
  · exact values_64le
  · exact values_64be
  · exact values_32le
  · exact values_32be
  · exact values_ia32aes_a
  · exact values_ia32aes_a
  · exact values_ia32aes_b

end T1ha.Model
