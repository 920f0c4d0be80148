import Verif.Proofs.Fetch
import Verif.Proofs.Arith
import Verif.ContractOthers
import Verif.SpecOthers

/-!
# Reading inside a message
-/

namespace T1ha.Model

variable {w : World} {ov : Overlay} {cfg : Cfg} {P : Ev → Prop} {lo hi : Nat}

/-- The bytes from `lo` to `hi` may be read, with pointers up to `d` bytes before them. -/
structure Space (cfg : Cfg) (d : Nat) (P : Ev → Prop) (lo hi : Nat) : Prop where
  hi_lt : hi < 2 ^ cfg.bits
  rd : ∀ a n, lo ≤ a → a + n ≤ hi → P (.rd a n)
  iter : P .iter
  ptr : ∀ a, lo ≤ a + d → a ≤ hi → P (.ptr a)

theorem Message.space {data : Nat} {m : List Byte} (h : Message cfg w ov data m) (d : Nat) :
    Space cfg d (Looks d data m.length) data (data + m.length) where
  hi_lt := h.fits
  rd := fun _ _ h1 h2 => ⟨h1, h2⟩
  iter := trivial
  ptr := fun _ h1 h2 => ⟨h1, h2⟩

/-- Pointers as computed by `read_unaligned`. -/
def Proxy (cfg : Cfg) (d lo hi : Nat) : Prop := cfg.proxy = true → lo < hi → 7 ≤ d ∧ 7 ≤ lo

theorem Space.sub {d v k n : Nat} (hs : Space cfg d P lo hi) (hb : Proxy cfg d lo hi) (h1 : lo ≤ v)
    (h2 : v + k ≤ hi) (hn : n ≤ 8) : Sub (cfg.gap .unaligned n) P v k where
  rd := fun a j h3 h4 => hs.rd a j (by omega) (by omega)
  ptr := fun h0 hk => by
    simp only [Cfg.gap] at *
    split at h0
    · rename_i hp
      obtain ⟨h7, h8⟩ := hb hp (by omega)
      rw [if_pos hp]
      exact ⟨by omega, fun a h3 h4 => hs.ptr a (by omega) (by omega)⟩
    · omega

theorem Space.fetch64 {d v : Nat} {r : List Byte} (hs : Space cfg d P lo hi) (hb : Proxy cfg d lo hi)
    (hh : Holds w ov v r) (h1 : lo ≤ v) (h2 : v + 8 ≤ hi) (hl : r.length = 8) :
    Reads w ov P (range v 8) 0 (fetch64_le_unaligned cfg v) (Spec.num r) := by
  refine (exec_fetch64_le_unaligned (hl ▸ hh.mapped) (hs.sub hb h1 h2 (by omega))).post ?_
  rintro _ _ ⟨rfl, bs, hbl, hsn, rfl⟩
  rw [hsn.eq_of_holds hh (by rw [hbl, hl])]
  exact ⟨rfl, rfl⟩

theorem setWidth_num {b k : Nat} (bs : List Byte) (hl : bs.length = k) (h1 : 256 ^ k ≤ 2 ^ b) : (BitVec.ofNat b (leVal bs)).setWidth 64 = Spec.num bs := by
  have := leVal_lt bs
  rw [hl] at this
  apply BitVec.eq_of_toNat_eq
  simp only [BitVec.toNat_setWidth, BitVec.toNat_ofNat, Spec.num]
  rw [Nat.mod_eq_of_lt (a := leVal bs) (b := 2 ^ b) (by omega)]

theorem Space.fetch32 {d v : Nat} {r : List Byte} (hs : Space cfg d P lo hi) (hb : Proxy cfg d lo hi)
    (hh : Holds w ov v r) (h1 : lo ≤ v) (h2 : v + 4 ≤ hi) (hl : r.length = 4) :
    Exec w ov P (range v 4) 0 (fetch32_le_unaligned cfg v)
      (fun x o => x.setWidth 64 = Spec.num r ∧ o = ov) := by
  refine (exec_fetch32_le_unaligned (hl ▸ hh.mapped) (hs.sub hb h1 h2 (by omega))).post ?_
  rintro _ _ ⟨rfl, bs, hbl, hsn, rfl⟩
  rw [hsn.eq_of_holds hh (by rw [hbl, hl])]
  exact ⟨setWidth_num r hl (by decide), rfl⟩

theorem Space.fetch16 {d v : Nat} {r : List Byte} (hs : Space cfg d P lo hi) (hb : Proxy cfg d lo hi)
    (hh : Holds w ov v r) (h1 : lo ≤ v) (h2 : v + 2 ≤ hi) (hl : r.length = 2) :
    Exec w ov P (range v 2) 0 (fetch16_le_unaligned cfg v)
      (fun x o => x.setWidth 64 = Spec.num r ∧ o = ov) := by
  refine (exec_fetch16_le_unaligned (hl ▸ hh.mapped) (hs.sub hb h1 h2 (by omega))).post ?_
  rintro _ _ ⟨rfl, bs, hbl, hsn, rfl⟩
  rw [hsn.eq_of_holds hh (by rw [hbl, hl])]
  exact ⟨setWidth_num r hl (by decide), rfl⟩

theorem Space.byte {d v i : Nat} {b : Byte} {r : List Byte} (hs : Space cfg d P lo hi)
    (hh : Holds w ov v r) (h1 : lo ≤ v) (h2 : v + i < hi) (hb : r[i]? = some b) :
    Reads w ov P (range (v + i) 1) 0 (byteAt v i) b := by
  have hi' : i < r.length := by
    rw [List.getElem?_eq_some_iff] at hb
    exact hb.1
  have hm : Mapped w (v + i) 1 := hh.mapped.sub (by omega) (by omega)
  refine (exec_byteAt hm (hs.rd _ _ (by omega) (by omega))).post ?_
  rintro x _ ⟨rfl, hsn⟩
  obtain ⟨t, ht⟩ := hsn 0 x rfl
  have := hh t i b hb
  rw [Nat.add_zero, this] at ht
  exact ⟨(Option.some.inj ht).symm, rfl⟩

/-- The value of one byte. -/
theorem setWidth_byte (b : Byte) : b.setWidth 64 = Spec.num [b] := by
  apply BitVec.eq_of_toNat_eq
  simp [Spec.num, leVal]

end T1ha.Model
