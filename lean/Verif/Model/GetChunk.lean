import Verif.Model.Std
/-! # src/utils/get_chunk.rs, on UTF-8 byte offsets -/

namespace WanaKana

/-- `char::len_utf8`. Used in src/utils/get_chunk.rs:3-9. -/
def lenUtf8 (c : Char) : Nat :=
  if c.toNat < 0x80 then 1 else if c.toNat < 0x800 then 2 else if c.toNat < 0x10000 then 3 else 4

/-- `str::len`: length in bytes. Used in src/utils/get_chunk.rs:3-9. -/
def byteLen : Str → Nat
  | [] => 0
  | c :: cs => lenUtf8 c + byteLen cs

/-- `str::char_indices` starting at byte offset `off`. Used in src/utils/get_chunk.rs:3-9. -/
def charIndicesFrom (off : Nat) : Str → List (Nat × Char)
  | [] => []
  | c :: cs => (off, c) :: charIndicesFrom (off + lenUtf8 c) cs

/-- `str::char_indices`. Used in src/utils/get_chunk.rs:3-9. -/
def char_indices (s : Str) : List (Nat × Char) := charIndicesFrom 0 s

/-- Split a string at a byte offset; panics if the offset is past the end or inside a
character (`str` slicing rule). Used in src/utils/get_chunk.rs:3-9. -/
def splitAtByte : Str → Nat → Res (Str × Str)
  | s, 0 => .ok ([], s)
  | [], _ + 1 => .error .panic
  | c :: cs, n =>
    if lenUtf8 c ≤ n then do
      let r ← splitAtByte cs (n - lenUtf8 c)
      .ok (c :: r.1, r.2)
    else .error .panic

/-- `&text[start..end]` on byte offsets: panics if `start > end`, or if an offset is past the
end or not on a character boundary. Used in src/utils/get_chunk.rs:3-9. -/
def sliceBytes (text : Str) (start stop : Nat) : Res Str :=
  if start ≤ stop then do
    let a ← splitAtByte text start
    let b ← splitAtByte a.2 (stop - start)
    .ok b.1
  else .error .panic

/-- src/utils/get_chunk.rs:2-10 -/
def get_chunk (text : Str) (start stop : Nat) : Res Str :=
  let start := (((char_indices text)[start]?).map fun el => el.1).getD 0
  let stop := (((char_indices text)[stop]?).map fun el => el.1).getD (byteLen text)
  sliceBytes text start stop

end WanaKana
