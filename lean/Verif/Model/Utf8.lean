import Verif.Model.GetChunk
/-! # `str` as the standard library keeps it: bytes in UTF-8

The rest of the model takes a `&str` to be the list of its characters.  Here are the functions of `core::str` that
src/utils/get_chunk.rs uses, on the bytes themselves; bit operations are written as arithmetic. -/

namespace WanaKana

/-- `core::str::validations::next_code_point`: decodes one character.  `none` at the end (and for bytes that are not
UTF-8, which a `&str` never holds). Used in src/utils/get_chunk.rs:3-9. -/
def nextCodePoint : List UInt8 → Option (Nat × List UInt8)
  | [] => none
  | x :: r =>
    if x.toNat < 128 then some (x.toNat, r)
    else match r with
      | [] => none
      | y :: r =>
        if x.toNat < 0xE0 then some (x.toNat % 32 * 64 + y.toNat % 64, r)
        else match r with
          | [] => none
          | z :: r =>
            if x.toNat < 0xF0 then some (x.toNat % 32 * 4096 + (y.toNat % 64 * 64 + z.toNat % 64), r)
            else match r with
              | [] => none
              | w :: r => some (x.toNat % 8 * 262144 + ((y.toNat % 64 * 64 + z.toNat % 64) * 64 + w.toNat % 64), r)

/-- `core::str::CharIndices::next` until the end, from byte offset `off`. Used in src/utils/get_chunk.rs:3-9. -/
def charIndicesBytes (off : Nat) : Nat → List UInt8 → List (Nat × Char)
  | 0, _ => []
  | fuel + 1, bs =>
    match nextCodePoint bs with
    | none => []
    | some (ch, rest) => (off, Char.ofNat ch) :: charIndicesBytes (off + (bs.length - rest.length)) fuel rest

/-- `str::char_indices`. Used in src/utils/get_chunk.rs:3-9. -/
def strCharIndices (bs : List UInt8) : List (Nat × Char) := charIndicesBytes 0 bs.length bs

/-- `str::is_char_boundary`: at an end, or the byte there is not a continuation byte (`as i8 >= -0x40`).
Used in src/utils/get_chunk.rs:3-9. -/
def isCharBoundary (bs : List UInt8) (i : Nat) : Bool :=
  if i = 0 then true
  else match bs[i]? with
    | none => i == bs.length
    | some b => decide (b.toNat < 128 ∨ 192 ≤ b.toNat)

/-- `&text[start..end]` (`core::str::traits`, `SliceIndex<str> for Range<usize>`).
Used in src/utils/get_chunk.rs:3-9. -/
def strSlice (bs : List UInt8) (start stop : Nat) : Res (List UInt8) :=
  if start ≤ stop ∧ isCharBoundary bs start = true ∧ isCharBoundary bs stop = true then
    .ok ((bs.drop start).take (stop - start))
  else .error .panic

/-- src/utils/get_chunk.rs:2-10, on bytes -/
def get_chunk_bytes (text : List UInt8) (start stop : Nat) : Res (List UInt8) :=
  let start := (((strCharIndices text)[start]?).map fun el => el.1).getD 0
  let stop := (((strCharIndices text)[stop]?).map fun el => el.1).getD text.length
  strSlice text start stop

end WanaKana
