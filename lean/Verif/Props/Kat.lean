import Verif.Proof.Kat
/-!
# Properties of the text input and output of the KAT program: C42
-/
namespace Saber.Props
open Spec Spec.Hex

/-- C42: `FindMarker` finds the first occurrence of a marker of at most 49 characters and leaves the file just after it; it returns 0
at the end of the file if there is none. -/
theorem C42_FindMarker (infile marker : List Byte) (h : marker.length ≤ 49) :
    FindMarker infile marker = .ok (match after marker infile with
      | some rest => (1, rest)
      | none => (0, [])) := by
  have := FindMarker_ok infile marker
  rwa [List.take_of_length_le h] at this

/-- C42: `ReadHex` skips characters that are neither hexadecimal digits nor line ends, reads the digits, and stores the number that
they denote in big-endian order, modulo `256^L`: short input is padded with zeros on the left, of long input the last `2 L` digits count. -/
theorem C42_ReadHex (infile S A : List Byte) (L : Nat) (hL : 0 < L) (hA : A.length = L) (hS : S.length ≤ 49)
    (skip ds : List Byte) (hj : ∀ c ∈ skip, isHex c = false ∧ c ≠ 10) (hds : ∀ c ∈ ds, isHex c = true) (hne : ds ≠ [])
    (c : Byte) (hc : isHex c = false) (rest : List Byte) (h : after S infile = some (skip ++ ds ++ c :: rest)) :
    ReadHex infile A L S = .ok (1, Drbg.toBE L (value ds), rest) := ReadHex_ok infile S A L hL hA hS skip ds hj hds hne c hc rest h

/-- C42: if the line ends before the first digit, the bytes are zero and reading goes on with the next line. -/
theorem C42_ReadHex_blank (infile S A : List Byte) (L : Nat) (hL : 0 < L) (hA : A.length = L) (hS : S.length ≤ 49)
    (skip : List Byte) (hj : ∀ c ∈ skip, isHex c = false ∧ c ≠ 10) (rest : List Byte) (h : after S infile = some (skip ++ 10 :: rest)) :
    ReadHex infile A L S = .ok (1, List.replicate L 0, rest) := ReadHex_blank infile S A L hL hA hS skip hj rest h

/-- C42: if the label does not occur, `ReadHex` returns 0, and the bytes are zero. -/
theorem C42_ReadHex_missing (infile S A : List Byte) (L : Nat) (hL : 0 < L) (hA : A.length = L) (hS : S.length ≤ 49)
    (h : after S infile = none) : ReadHex infile A L S = .ok (0, List.replicate L 0, []) := ReadHex_none infile S A L hL hA hS h

/-- C42: a blank line, and a missing label. -/
example : ReadHex [115, 61, 32, 10, 65] [7] 1 [115, 61] = .ok (1, [0], [65]) ∧ ReadHex [115, 61, 10] [7] 1 [116] = .ok (0, [0], []) :=
  ⟨C42_ReadHex_blank _ [115, 61] [7] 1 (by decide) rfl (by decide) [32] (by decide) [65] rfl, C42_ReadHex_missing _ [116] [7] 1 (by decide) rfl (by decide) rfl⟩

/-- C42: `fprintBstr` appends the label, two upper-case digits per byte and a line end. -/
theorem C42_fprintBstr (fp S A : List Byte) (hA : A ≠ []) : fprintBstr fp S A A.length = .ok (fp ++ S ++ text A ++ [10]) := by
  have := fprintBstr_ok fp S A A.length (List.length_pos_iff.mpr hA) (le_refl _)
  rwa [List.take_of_length_le (le_refl _)] at this

/-- C42: reading back what was printed gives the same bytes, whatever was in the file before (as long as the label does not occur
earlier) and whatever follows. -/
theorem C42_round_trip (pre S A rest buf : List Byte) (hA : A ≠ []) (hS : S.length ≤ 49) (hfirst : after S (pre ++ S) = some [])
    (hbuf : buf.length = A.length) :
    ∃ file, fprintBstr pre S A A.length = .ok file ∧ ReadHex (file ++ rest) buf A.length S = .ok (1, A, rest) := by
  refine ⟨_, C42_fprintBstr pre S A hA, ?_⟩
  have hpos := List.length_pos_iff.mpr hA
  have hne : text A ≠ [] := by
    cases A with
    | nil => simp at hpos
    | cons a A => simp [text]
  have hn : isHex 10 = false := by decide
  have ha : after S (pre ++ S ++ text A ++ [10] ++ rest) = some ([] ++ text A ++ 10 :: rest) := by
    have := after_extend S pre (text A ++ 10 :: rest) hfirst
    simpa [List.append_assoc] using this
  rw [C42_ReadHex _ S buf A.length hpos hbuf hS [] (text A) (by simp) (text_isHex A) hne 10 hn rest ha, value_text, toBE_ofBE]

/-- C42: a request for 0 bytes reads nothing from the file, although `fprintBstr` prints `00` for an empty string, and writes one byte:
outside of the array if the array is empty. -/
theorem C42_empty (infile S : List Byte) (fp : List Byte) :
    fprintBstr fp S [] 0 = .ok (fp ++ S ++ [48, 48] ++ [10]) ∧ ReadHex infile [] 0 S = .error .oob ∧
      ∀ a A, ReadHex infile (a :: A) 0 S = .ok (1, 0 :: A, infile) := by
  refine ⟨rfl, rfl, fun a A => rfl⟩

/-- An instance of the round trip: the label `"ss = "` after a line `"sx = 1\n"`. -/
example : ∃ file, fprintBstr [115, 120, 32, 61, 32, 49, 10] [115, 115, 32, 61, 32] [0xde, 0xad, 0x00] 3 = .ok file ∧
    ReadHex (file ++ [65]) [1, 2, 3] 3 [115, 115, 32, 61, 32] = .ok (1, [0xde, 0xad, 0x00], [65]) :=
  C42_round_trip _ _ [0xde, 0xad, 0x00] _ _ (by decide) (by decide) (by decide) rfl

end Saber.Props
