import Verif.Props.HighwaySimd
import Verif.Proofs.HighwayVsx

/-!
# HighwayHash with the vector instructions of PowerPC: C88

`vsx e` (in `Verif/Model/HighwayVsx.lean`) is the implementation of the state on a machine of the byte order `e`; the
templates of highwayhash.h, with it, are the functions.
-/

namespace T1ha.Examples

open Model

/-- PowerPC64, little-endian. -/
def ppc64le : Cfg := { amd64 with pageSize := 65536, unaligned := .slow }

/-- PowerPC64, big-endian. -/
def ppc64 : Cfg := { mips32 with ptr64 := true, ulong64 := true }

end T1ha.Examples

namespace T1ha.Props

open Model Examples

variable {cfg : Cfg} {w : World} {s : Sys} {strict : Bool} {key : Quad} {data : Nat} {m : List Byte}

/-- C88: on a little-endian machine, HighwayHash with VSX returns the value of HighwayHash (64, 128 and 256 bits), for
every message, at every address, with every key. It reads every byte of the message and no other byte (also when it
reads 4 or 16 at once), forms no address outside it, writes nothing, and takes one iteration for each 32 bytes. -/
theorem highway_vsx_correct_partial (h : Message cfg w s.ov data m) (he : cfg.endian = .little) (strict : Bool)
    (key : Quad) :
    Hashes w s (HighwaySimd.HighwayHash64 (vsx cfg.endian) cfg strict key data m.length) (Spec.highway64 key m) 0 data
        m.length (m.length / 32) ∧
      Hashes w s (HighwaySimd.HighwayHash128 (vsx cfg.endian) cfg strict key data m.length) (Spec.highway128 key m) 0 data
        m.length (m.length / 32) ∧
      Hashes w s (HighwaySimd.HighwayHash256 (vsx cfg.endian) cfg strict key data m.length) (Spec.highway256 key m) 0 data
        m.length (m.length / 32) := by
  rw [he]
  exact simd_correct refines_vsx h strict key

/-- C88: what C88 claims is false on big-endian machines: the value of the empty message, with the first key of the
verification, is another one than HighwayHash of 64 bits (and than the first expected value of the verification), and so
is the value of 128 bits and that of 256 bits. -/
theorem highway_vsx_wrong (hb : cfg.endian = .big) (w : World) (s : Sys) (strict : Bool) (data : Nat) :
    (∃ v r t, Returns (HighwaySimd.HighwayHash64 (vsx cfg.endian) cfg strict
          ⟨0x0706050403020100, 0x0F0E0D0C0B0A0908, 0x1716151413121110, 0x1F1E1D1C1B1A1918⟩ data 0) w s v r t ∧
        v ≠ Spec.highway64 ⟨0x0706050403020100, 0x0F0E0D0C0B0A0908, 0x1716151413121110, 0x1F1E1D1C1B1A1918⟩ [] ∧
        v ≠ 0x907A56DE22C26E53) ∧
      (∃ v r t, Returns (HighwaySimd.HighwayHash128 (vsx cfg.endian) cfg strict
          ⟨0x0706050403020100, 0x0F0E0D0C0B0A0908, 0x1716151413121110, 0x1F1E1D1C1B1A1918⟩ data 0) w s v r t ∧
        v ≠ Spec.highway128 ⟨0x0706050403020100, 0x0F0E0D0C0B0A0908, 0x1716151413121110, 0x1F1E1D1C1B1A1918⟩ []) ∧
      ∃ v r t, Returns (HighwaySimd.HighwayHash256 (vsx cfg.endian) cfg strict
          ⟨0x0706050403020100, 0x0F0E0D0C0B0A0908, 0x1716151413121110, 0x1F1E1D1C1B1A1918⟩ data 0) w s v r t ∧
        v ≠ Spec.highway256 ⟨0x0706050403020100, 0x0F0E0D0C0B0A0908, 0x1716151413121110, 0x1F1E1D1C1B1A1918⟩ [] := by
  rw [hb]
  have hT : ∀ k, HighwaySimd.HighwayHashT (vsx .big) cfg strict ((vsx .big).Reset k) data 0 =
      pure (HighwayVsx.Reset k) := by
    intro k
    unfold HighwaySimd.HighwayHashT HighwaySimd.hashLoop
    simp only [Nat.zero_and, Nat.lt_irrefl, if_false, pure_bind, ne_eq, not_true_eq_false]
    rfl
  refine ⟨⟨HighwayVsx.Finalize64 .big (HighwayVsx.Reset ⟨0x0706050403020100, 0x0F0E0D0C0B0A0908, 0x1716151413121110, 0x1F1E1D1C1B1A1918⟩), s, [], ?_, ?_, ?_⟩,
    ⟨HighwayVsx.Finalize128 .big (HighwayVsx.Reset ⟨0x0706050403020100, 0x0F0E0D0C0B0A0908, 0x1716151413121110, 0x1F1E1D1C1B1A1918⟩), s, [], ?_, ?_⟩,
    ⟨HighwayVsx.Finalize256 .big (HighwayVsx.Reset ⟨0x0706050403020100, 0x0F0E0D0C0B0A0908, 0x1716151413121110, 0x1F1E1D1C1B1A1918⟩), s, [], ?_, ?_⟩⟩
  · unfold HighwaySimd.HighwayHash64
    rw [hT, pure_bind]
    exact Returns.pure _
  · decide +kernel
  · decide +kernel
  · unfold HighwaySimd.HighwayHash128
    rw [hT, pure_bind]
    exact Returns.pure _
  · decide +kernel
  · unfold HighwaySimd.HighwayHash256
    rw [hT, pure_bind]
    exact Returns.pure _
  · decide +kernel

/-- 43 bytes at the end of the only mapped page, with the strict reading of C. -/
example (key : Quad) : Hashes (atEnd 43) start
    (HighwaySimd.HighwayHash64 (vsx .little) ppc64le true key (8192 - 43) (msg 43).length)
    (Spec.highway64 key (msg 43)) 0 (8192 - 43) (msg 43).length ((msg 43).length / 32) :=
  (highway_vsx_correct_partial (message43 ppc64le) rfl true key).1

/-- A message of one byte. -/
example (key : Quad) : Hashes (memory 4096 8192 5001 [7]) start
    (HighwaySimd.HighwayHash256 (vsx .little) ppc64le true key 5001 1)
    (Spec.highway256 key [7]) 0 5001 1 0 :=
  (highway_vsx_correct_partial (message ppc64le (by decide) (by decide) (by decide)) rfl true key).2.2

example : ∃ v r t, Returns (HighwaySimd.HighwayHash64 (vsx .big) ppc64 true
      ⟨0x0706050403020100, 0x0F0E0D0C0B0A0908, 0x1716151413121110, 0x1F1E1D1C1B1A1918⟩ 5001 0) quiet start v r t ∧
    v ≠ Spec.highway64 ⟨0x0706050403020100, 0x0F0E0D0C0B0A0908, 0x1716151413121110, 0x1F1E1D1C1B1A1918⟩ [] ∧
    v ≠ 0x907A56DE22C26E53 :=
  (highway_vsx_wrong (cfg := ppc64) rfl quiet start true 5001).1

/-- C88: on a little-endian machine, the function passes the verification which the test program has for the other
implementations (it does not apply it to this one). -/
theorem highway_vsx_verified_partial (he : cfg.endian = .little) (strict : Bool) (hw : Writable w data 65)
    (hf : data + 65 < 2 ^ cfg.bits) :
    ∃ s' t, Returns (HighwayHash64_verify cfg data (HighwaySimd.HighwayHash64 (vsx cfg.endian) cfg strict)) w s false
      s' t := by
  rw [he]
  exact simd_verified refines_vsx strict hw hf

example : ∃ s' t, Returns (HighwayHash64_verify ppc64le 5001 (HighwaySimd.HighwayHash64 (vsx .little) ppc64le true)) quiet
    start false s' t :=
  highway_vsx_verified_partial (cfg := ppc64le) rfl true (quiet_writable (by decide) (by decide)) (by decide)

/-- C88: on a little-endian machine, HighwayHash with VSX of a message appended in pieces. However the message is cut
into pieces (of any size, also empty), wherever they are, with a new object or after a reset of one which has been used
in any way (its array has 32 bytes): the results are those of the whole message. After the results have been asked for,
more pieces can be appended, and the results are then those of the longer message. Nothing but bytes of the pieces is
read, and nothing is written. -/
theorem highway_vsx_chunking_partial (he : cfg.endian = .little) {ps qs : List (Nat × List Byte)}
    (hp : AllThere cfg w s.ov ps) (hq : AllThere cfg w s.ov qs) (st : HighwaySimd.HighwayHashCatT HighwayVsx.State)
    (h32 : st = HighwaySimd.catNew (vsx cfg.endian) key ∨
      ∃ used, used.buffer.length = 32 ∧ st = HighwaySimd.catReset (vsx cfg.endian) key used) :
    ∃ s' t, Returns (do
        let st ← appendSimd (vsx cfg.endian) cfg strict (sizes ps) st
        let first ← finishSimd (vsx cfg.endian) cfg strict st
        let st ← appendSimd (vsx cfg.endian) cfg strict (sizes qs) st
        let second ← finishSimd (vsx cfg.endian) cfg strict st
        pure (first, second)) w s
      (highwayResults key (whole ps), highwayResults key (whole ps ++ whole qs)) s' t ∧
      s'.ov = s.ov ∧ ∀ x ∈ t, OnlyPieces (ps ++ qs) x := by
  rw [he] at h32 ⊢
  exact simd_chunking refines_vsx hp hq st h32

/-- Pieces of 5, 0 and 50 bytes. -/
example : ∃ s' t, Returns (do
        let st ← appendSimd (vsx .little) ppc64le true (sizes [(5000, quietBytes 5000 5), (6000, quietBytes 6000 0), (5003, quietBytes 5003 50)])
          (HighwaySimd.catNew (vsx .little) key)
        let first ← finishSimd (vsx .little) ppc64le true st
        let st ← appendSimd (vsx .little) ppc64le true (sizes [(5000, quietBytes 5000 5), (6000, quietBytes 6000 0), (5003, quietBytes 5003 50)]) st
        let second ← finishSimd (vsx .little) ppc64le true st
        pure (first, second)) quiet start
      (highwayResults key (whole [(5000, quietBytes 5000 5), (6000, quietBytes 6000 0), (5003, quietBytes 5003 50)]),
       highwayResults key (whole [(5000, quietBytes 5000 5), (6000, quietBytes 6000 0), (5003, quietBytes 5003 50)] ++
        whole [(5000, quietBytes 5000 5), (6000, quietBytes 6000 0), (5003, quietBytes 5003 50)])) s' t := by
  obtain ⟨s', t, h, -⟩ := highway_vsx_chunking_partial (cfg := ppc64le) rfl (pieces_there ppc64le) (pieces_there ppc64le) _
    (Or.inl rfl)
  exact ⟨s', t, h⟩

end T1ha.Props
