import Verif.Lemmas.Ints
import Verif.Lemmas.Bytes
import Verif.Model.Socket

/-! Property theorems C01–C04: conversions of `ptrace/ctypes_tools.py`. -/

namespace PT.Props
open PT

/-! ## C01 — integer width conversions -/

theorem C01_int2uint64 (v r : Int) : int2uint64 v = r ↔ Spec.IsUnsigned 64 v r := by
  rw [int2uint64_eq]
  constructor
  · rintro rfl
    refine ⟨by omega, by omega, v / 2 ^ 64, by omega⟩
  · rintro ⟨h0, h1, k, rfl⟩
    omega

theorem C01_int2uint32 (v r : Int) : int2uint32 v = r ↔ Spec.IsUnsigned 32 v r := by
  rw [int2uint32_eq]
  constructor
  · rintro rfl
    refine ⟨by omega, by omega, v / 2 ^ 32, by omega⟩
  · rintro ⟨h0, h1, k, rfl⟩
    omega

theorem C01_uint2int64 (v r : Int) : uint2int64 v = r ↔ Spec.IsSigned 63 v r := by
  rw [uint2int64_eq]
  constructor
  · rintro rfl
    split
    · exact ⟨by omega, by omega, v / 2 ^ 64 + 1, by omega⟩
    · exact ⟨by omega, by omega, v / 2 ^ 64, by omega⟩
  · rintro ⟨h0, h1, k, rfl⟩
    split <;> omega

theorem C01_uint2int32 (v r : Int) : uint2int32 v = r ↔ Spec.IsSigned 31 v r := by
  rw [uint2int32_eq]
  constructor
  · rintro rfl
    split
    · exact ⟨by omega, by omega, v / 2 ^ 32 + 1, by omega⟩
    · exact ⟨by omega, by omega, v / 2 ^ 32, by omega⟩
  · rintro ⟨h0, h1, k, rfl⟩
    split <;> omega

/-- The word-sized aliases use the width of the CPU word. -/
theorem C01_word_aliases (a : Arch) (v r : Int) :
    (long2ulong a v = r ↔ Spec.IsUnsigned (8 * a.W) v r) ∧
    (ulong2long a v = r ↔ Spec.IsSigned (8 * a.W - 1) v r) ∧
    (truncateWord a v = r ↔ Spec.IsUnsigned (8 * a.W) v r) := by
  rcases a with ⟨_ | _, big⟩
  · exact ⟨C01_int2uint32 v r, C01_uint2int32 v r, C01_int2uint32 v r⟩
  · exact ⟨C01_int2uint64 v r, C01_uint2int64 v r, C01_int2uint64 v r⟩

/-- The two conversions are mutually inverse on their ranges. -/
theorem C01_inverse64 (v : Int) :
    (-2 ^ 63 ≤ v → v < 2 ^ 63 → uint2int64 (int2uint64 v) = v) ∧
    (0 ≤ v → v < 2 ^ 64 → int2uint64 (uint2int64 v) = v) := by
  rw [uint2int64_eq, uint2int64_eq, int2uint64_eq, int2uint64_eq]
  constructor
  · intro h0 h1; split <;> omega
  · intro h0 h1; split <;> omega

theorem C01_inverse32 (v : Int) :
    (-2 ^ 31 ≤ v → v < 2 ^ 31 → uint2int32 (int2uint32 v) = v) ∧
    (0 ≤ v → v < 2 ^ 32 → int2uint32 (uint2int32 v) = v) := by
  rw [uint2int32_eq, uint2int32_eq, int2uint32_eq, int2uint32_eq]
  constructor
  · intro h0 h1; split <;> omega
  · intro h0 h1; split <;> omega

-- non-trivial instances: a negative value and a value with the sign bit set
example : int2uint64 (-2) = 18446744073709551614 := by rw [int2uint64_eq]; decide
example : Spec.IsSigned 63 18446744073709551614 (-2) := ⟨by decide, by decide, 1, by decide⟩
example : uint2int32 (2 ^ 40 + 2 ^ 31) = -2 ^ 31 := by rw [uint2int32_eq]; decide

/-! ## C02 — words and byte strings -/

/-- Every word in range converts to exactly the bytes the CPU stores, and back. -/
theorem C02_word_roundtrip (a : Arch) (w : Nat) (h : w < 2 ^ (8 * a.W)) :
    ∃ b, word2bytes a w = .ok b ∧ b.length = a.W ∧ bytes2word a b = .ok w ∧
      ∀ i (hi : i < b.length), (b[i]).val = Spec.byteAt a.big a.W w i := by
  have hw : w < 256 ^ a.W := by
    have : 2 ^ (8 * a.W) = 256 ^ a.W := by rw [Nat.pow_mul]
    omega
  have hp := packUint_ok (big := a.big) hw
  refine ⟨_, hp, packUint_length hp, ?_, ?_⟩
  · have := unpack_pack hp
    simpa [bytes2word] using this
  · intro i hi
    have hl := packUint_length hp
    have hi' := hi
    rw [hl] at hi'
    unfold Spec.byteAt
    rcases a with ⟨is64, _ | _⟩
    · simp only [Bool.false_eq_true, if_false] at hi ⊢
      exact leBytes_getElem _ _ _ _
    · simp only [if_true] at hi ⊢
      rw [List.getElem_reverse, leBytes_getElem, leBytes_length]

example := C02_word_roundtrip ⟨false, true⟩ 0x01020304 (by decide)

/-- Every word-sized byte string converts to a word in range, and back. -/
theorem C02_bytes_roundtrip (a : Arch) (b : Bytes) (h : b.length = a.W) :
    ∃ w : Nat, bytes2word a b = .ok w ∧ w < 2 ^ (8 * a.W) ∧ word2bytes a w = .ok b := by
  have h1 : bytes2word a b = .ok (leValue (if a.big then b.reverse else b)) := by
    unfold bytes2word unpackUint; rw [if_pos h]
  refine ⟨_, h1, ?_, pack_unpack h1⟩
  have := leValue_lt (if a.big then b.reverse else b)
  have hl : (if a.big then b.reverse else b).length = a.W := by split <;> simp [h]
  rw [hl] at this
  have h2 : 2 ^ (8 * a.W) = 256 ^ a.W := by rw [Nat.pow_mul]
  omega

example := C02_bytes_roundtrip ⟨true, false⟩ [1, 2, 3, 4, 5, 6, 7, 255] rfl

/-- Any other integer and any other length is rejected with `struct.error`. -/
theorem C02_rejects (a : Arch) :
    (∀ w : Int, ¬ (0 ≤ w ∧ w < 2 ^ (8 * a.W)) → word2bytes a w = .error .struct) ∧
    (∀ b : Bytes, b.length ≠ a.W → bytes2word a b = .error .struct) := by
  constructor
  · intro w h
    have h2 : (2 : Int) ^ (8 * a.W) = 256 ^ a.W := by rw [Int.pow_mul]; rfl
    unfold word2bytes packUint
    rw [if_neg]; rwa [h2] at h
  · intro b h
    unfold bytes2word unpackUint
    rw [if_neg h]

example : word2bytes ⟨true, false⟩ 0x0102 = .ok [2, 1, 0, 0, 0, 0, 0, 0] := by decide +kernel
example : word2bytes ⟨false, true⟩ 0x0102 = .ok [0, 0, 1, 2] := by decide +kernel

/-! ## C03 — addresses as text -/

theorem C03_null (a : Arch) (n : Nat) : formatAddress a n = "NULL".toList ↔ n = 0 := by
  unfold formatAddress
  constructor
  · intro h
    by_contra hn
    rw [if_pos hn] at h
    unfold formatWordHex formatUintHex32 formatUintHex64 at h
    split at h <;> simp at h
  · rintro rfl; rfl

theorem C03_lossless (a : Arch) (n : Nat) (h : n ≠ 0) :
    Spec.hexLiteral (formatAddress a n) = some n := by
  unfold formatAddress
  rw [if_pos h]
  unfold formatWordHex formatUintHex32 formatUintHex64
  split <;> exact hexNumber_pyHexPad _ _

example := C03_lossless ⟨true, false⟩ 0x7ffe00001234 (by decide)

theorem C03_injective (a : Arch) (m n : Nat) (h : formatAddress a m = formatAddress a n) : m = n := by
  by_cases hm : m = 0
  · subst hm
    exact ((C03_null a n).1 (h ▸ (C03_null a 0).2 rfl)).symm
  · by_cases hn : n = 0
    · subst hn
      exact (C03_null a m).1 (h.trans ((C03_null a 0).2 rfl))
    · have h1 := C03_lossless a m hm
      have h2 := C03_lossless a n hn
      rw [h, h2] at h1
      exact (Option.some.inj h1).symm

example := C03_injective ⟨true, false⟩ (4096 + 10) 4106 rfl

/-- Every non-zero address that fits a word has the same width: `0x` and two digits per byte. -/
theorem C03_width (a : Arch) (n : Nat) (h0 : n ≠ 0) (h : n < 2 ^ (8 * a.W)) :
    (formatAddress a n).length = 2 + 2 * a.W := by
  unfold formatAddress
  rw [if_pos h0]
  unfold formatWordHex
  rcases a with ⟨_ | _, big⟩
  · simp only [Bool.false_eq_true, if_false, formatUintHex32, List.length_cons]
    rw [pyHexPad_length 8 n (by decide) (by simpa [Arch.W] using h)]; rfl
  · simp only [if_true, formatUintHex64, List.length_cons]
    rw [pyHexPad_length 16 n (by decide) (by simpa [Arch.W] using h)]; rfl

example := C03_width ⟨false, false⟩ 0x8048abc (by decide) (by decide)

/-- 16 bits: `0x` and four digits, which read back give the value. -/
theorem C03_halfword (n : Nat) (h : n < 2 ^ 16) : Spec.hexLiteral (formatUintHex16 n) = some n ∧ (formatUintHex16 n).length = 6 := by
  refine ⟨hexNumber_pyHexPad _ _, ?_⟩
  unfold formatUintHex16
  rw [List.length_cons, List.length_cons, pyHexPad_length 4 n (by decide) (by simpa using h)]

example : formatUintHex16 0xab = "0x00ab".toList := by decide +kernel
example := C03_halfword 0xab (by decide)

/-- A formatted range determines both ends. -/
theorem C03_range_injective (a : Arch) (s e s' e' : Nat)
    (hs : s < 2 ^ (8 * a.W)) (hs' : s' < 2 ^ (8 * a.W))
    (h : formatAddressRange a s e = formatAddressRange a s' e') : s = s' ∧ e = e' := by
  unfold formatAddressRange at h
  have hlit : ∀ n, Spec.hexLiteral (formatWordHex a n) = some n := by
    intro n
    unfold formatWordHex formatUintHex32 formatUintHex64
    split <;> exact hexNumber_pyHexPad _ _
  have hlen : ∀ n, n < 2 ^ (8 * a.W) → (formatWordHex a n).length = 2 + 2 * a.W := by
    intro n hn
    unfold formatWordHex
    rcases a with ⟨_ | _, big⟩
    · simp only [Bool.false_eq_true, if_false, formatUintHex32, List.length_cons]
      rw [pyHexPad_length 8 n (by decide) (by simpa [Arch.W] using hn)]; rfl
    · simp only [if_true, formatUintHex64, List.length_cons]
      rw [pyHexPad_length 16 n (by decide) (by simpa [Arch.W] using hn)]; rfl
  have h1 := List.append_inj h (by rw [hlen s hs, hlen s' hs'])
  constructor
  · have := hlit s; rw [h1.1, hlit s'] at this; exact (Option.some.inj this).symm
  · have h2 := (List.cons.inj h1.2).2
    have := hlit e; rw [h2, hlit e'] at this; exact (Option.some.inj this).symm

example : formatAddress ⟨false, false⟩ 0x8048abc = "0x08048abc".toList := by decide +kernel

/-! ## C04 — network byte order

The full claim is: for *both* host byte orders the port shown is `256*b0+b1` and the address shown
lists the four bytes in memory order. `ntoh_ushort`/`ntoh_uint` swap unconditionally, so this fails on
big-endian hosts (`C04_refuted_big_endian`); it holds on little-endian hosts. -/

theorem C04_port_partial (a : Arch) (ha : a.big = false) (b0 b1 : Byte) :
    sinPort a [b0, b1] = .ok (256 * b0.val + b1.val) := by
  have h0 := b0.isLt
  have h1 := b1.isLt
  have hr : readNativeUint a [b0, b1] = leValue [b0, b1] := by
    unfold readNativeUint; rw [ha, if_neg (by decide)]
  have hp := packBig_leValue [b0, b1] 2 rfl
  have hu := unpackLittle_eq [b0, b1].reverse 2 rfl
  have hv : leValue [b0, b1].reverse = 256 * b0.val + b1.val := by
    simp [leValue]; omega
  rw [hv] at hu
  unfold sinPort ntoh_ushort
  rw [hr, hp, except_bind_ok, hu]

example : sinPort ⟨false, false⟩ [31, 144] = .ok 8080 := C04_port_partial ⟨false, false⟩ rfl 31 144

theorem C04_address_partial (a : Arch) (ha : a.big = false) (b0 b1 b2 b3 : Byte) :
    inAddrRepr a [b0, b1, b2, b3] =
      .ok (natStr b0.val ++ '.' :: natStr b1.val ++ '.' :: natStr b2.val ++ '.' :: natStr b3.val) := by
  have hr : readNativeUint a [b0, b1, b2, b3] = leValue [b0, b1, b2, b3] := by
    unfold readNativeUint; rw [ha, if_neg (by decide)]
  have hp := packBig_leValue [b0, b1, b2, b3] 4 rfl
  have hu := unpackLittle_eq [b0, b1, b2, b3].reverse 4 rfl
  have hq := packBig_leValue [b0, b1, b2, b3].reverse 4 rfl
  rw [List.reverse_reverse] at hq
  unfold inAddrRepr ntoh_uint ip_int2str
  rw [hr, hp, except_bind_ok, hu, except_bind_ok, hq, except_bind_ok, inetNtoa]

example := C04_address_partial ⟨true, false⟩ rfl 192 168 0 1

/-- On a big-endian host port 80 (bytes 0, 80) is displayed as 20480. -/
theorem C04_refuted_big_endian :
    ¬ ∀ (a : Arch) (b0 b1 : Byte), sinPort a [b0, b1] = .ok (256 * b0.val + b1.val) := by
  intro h
  have := h ⟨true, true⟩ 0 80
  revert this
  decide +kernel

example : sinPort ⟨true, false⟩ [0, 80] = .ok 80 := by decide +kernel
example : inAddrRepr ⟨true, false⟩ [127, 0, 0, 1] = .ok "127.0.0.1".toList := by decide +kernel

end PT.Props
