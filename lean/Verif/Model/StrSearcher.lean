import Verif.Model.Utf8Trim
/-! # `str::trim_start_matches` / `trim_end_matches` as they are implemented

src/trim_okurigana.rs:91 and 93 strip a token from one side of a text.  The standard library does that with its general
string matcher (library/core/src/str/pattern.rs): `StrSearcher`, for a non-empty pattern the Two-Way algorithm of Crochemore
and Perrin.  `next_reject` / `next_reject_back` are asked for the first piece that does not match.  Everything works on the
bytes of the texts.  `debug_assert!`s of the library are not part of the model. -/

namespace WanaKana.StrSearcher

/-- `SearchStep` (used in src/trim_okurigana.rs:91, 93) -/
inductive SearchStep where
  | «match» (a b : Nat)
  | reject (a b : Nat)
  | done
deriving DecidableEq, Repr

/-- the loop of `TwoWaySearcher::maximal_suffix` (used in src/trim_okurigana.rs:91, 93) -/
def maximalSuffixLoop (arr : List UInt8) (order_greater : Bool) :
    (fuel left right offset period : Nat) → Res (Nat × Nat)
  | 0, _, _, _, _ => .error .diverge
  | fuel + 1, left, right, offset, period =>
    match arr[right + offset]? with
    | none => .ok (left, period)
    | some a => do
      let b ← index arr (left + offset)
      if (decide (a < b) && !order_greater) || (decide (a > b) && order_greater) then do
        let p ← usizeSub (right + offset + 1) left
        maximalSuffixLoop arr order_greater fuel left (right + offset + 1) 0 p
      else if a = b then
        if offset + 1 = period then maximalSuffixLoop arr order_greater fuel left (right + offset + 1) 0 period
        else maximalSuffixLoop arr order_greater fuel left right (offset + 1) period
      else maximalSuffixLoop arr order_greater fuel right (right + 1) 0 1

/-- `TwoWaySearcher::maximal_suffix` (used in src/trim_okurigana.rs:91, 93) -/
def maximalSuffix (arr : List UInt8) (order_greater : Bool) : Res (Nat × Nat) :=
  maximalSuffixLoop arr order_greater ((arr.length + 1) * (arr.length + 1)) 0 1 0 1

/-- the loop of `TwoWaySearcher::reverse_maximal_suffix` (used in src/trim_okurigana.rs:91, 93) -/
def reverseMaximalSuffixLoop (arr : List UInt8) (known_period : Nat) (order_greater : Bool) :
    (fuel left right offset period : Nat) → Res Nat
  | 0, _, _, _, _ => .error .diverge
  | fuel + 1, left, right, offset, period =>
    if right + offset < arr.length then do
      let i ← usizeSub arr.length (1 + right + offset)
      let a ← index arr i
      let j ← usizeSub arr.length (1 + left + offset)
      let b ← index arr j
      let (left, right, offset, period) ←
        if (decide (a < b) && !order_greater) || (decide (a > b) && order_greater) then do
          let p ← usizeSub (right + offset + 1) left
          .ok (left, right + offset + 1, 0, p)
        else if a = b then
          if offset + 1 = period then .ok (left, right + offset + 1, 0, period)
          else .ok (left, right, offset + 1, period)
        else .ok (right, right + 1, 0, 1)
      if period = known_period then .ok left
      else reverseMaximalSuffixLoop arr known_period order_greater fuel left right offset period
    else .ok left

/-- `TwoWaySearcher::reverse_maximal_suffix` (used in src/trim_okurigana.rs:91, 93) -/
def reverseMaximalSuffix (arr : List UInt8) (known_period : Nat) (order_greater : Bool) : Res Nat :=
  reverseMaximalSuffixLoop arr known_period order_greater ((arr.length + 1) * (arr.length + 1)) 0 1 0 1

/-- `byteset_create`: a set of 64 bits, for the last six bits of a byte (used in src/trim_okurigana.rs:91, 93) -/
def bytesetCreate (bytes : List UInt8) : Nat :=
  bytes.foldl (fun a b => (1 <<< (b.toNat % 64)) ||| a) 0

/-- `byteset_contains` (used in src/trim_okurigana.rs:91, 93) -/
def bytesetContains (set : Nat) (b : UInt8) : Bool := (set >>> (b.toNat % 64)) % 2 != 0

/-- `TwoWaySearcher`; `memory` and `memory_back` are `none` for `usize::MAX` (used in src/trim_okurigana.rs:91, 93) -/
structure TwoWay where
  crit_pos : Nat
  crit_pos_back : Nat
  period : Nat
  byteset : Nat
  position : Nat
  «end» : Nat
  memory : Option Nat
  memory_back : Option Nat

/-- `TwoWaySearcher::new` (used in src/trim_okurigana.rs:91, 93) -/
def TwoWay.new (needle : List UInt8) (haystackLen : Nat) : Res TwoWay := do
  let f ← maximalSuffix needle false
  let t ← maximalSuffix needle true
  let crit_pos := if f.1 > t.1 then f.1 else t.1
  let period := if f.1 > t.1 then f.2 else t.2
  let u ← slice needle 0 crit_pos
  let v ← slice needle period (period + crit_pos)
  if u = v then do
    let rf ← reverseMaximalSuffix needle period false
    let rt ← reverseMaximalSuffix needle period true
    let crit_pos_back ← usizeSub needle.length (max rf rt)
    let b ← slice needle 0 period
    .ok { crit_pos := crit_pos, crit_pos_back := crit_pos_back, period := period, byteset := bytesetCreate b,
          position := 0, «end» := haystackLen, memory := some 0, memory_back := some needle.length }
  else do
    let l ← usizeSub needle.length crit_pos
    .ok { crit_pos := crit_pos, crit_pos_back := crit_pos, period := max crit_pos l + 1, byteset := bytesetCreate needle,
          position := 0, «end» := haystackLen, memory := none, memory_back := none }

/-- `for i in … { if needle[i] != haystack[start + i] { …; continue 'search } }`: the first such `i` (used in
src/trim_okurigana.rs:91, 93) -/
def firstMismatch (haystack needle : List UInt8) (start : Nat) : List Nat → Res (Option Nat)
  | [] => .ok none
  | i :: is => do
    let a ← index needle i
    let b ← index haystack (start + i)
    if a ≠ b then .ok (some i) else firstMismatch haystack needle start is

/-- the indices `a..b` (used in src/trim_okurigana.rs:91, 93) -/
def range (a b : Nat) : List Nat := List.range' a (b - a)

/-- `TwoWaySearcher::next::<RejectAndMatch>` (used in src/trim_okurigana.rs:91) -/
def TwoWay.next (haystack needle : List UInt8) (old_end : Nat) : (fuel : Nat) → TwoWay → Res (SearchStep × TwoWay)
  | 0, _ => .error .diverge
  | fuel + 1, st => do
    let needle_last ← usizeSub needle.length 1
    match haystack[st.position + needle_last]? with
    | none => .ok (.reject old_end haystack.length, { st with position := haystack.length })
    | some tail_byte =>
      if old_end ≠ st.position then .ok (.reject old_end st.position, st)
      else if !bytesetContains st.byteset tail_byte then
        TwoWay.next haystack needle old_end fuel
          { st with position := st.position + needle.length, memory := st.memory.map fun _ => 0 }
      else do
        let start := max st.crit_pos (st.memory.getD 0)
        let right ← firstMismatch haystack needle st.position (range start needle.length)
        match right with
        | some i => do
          let d ← usizeSub i st.crit_pos
          TwoWay.next haystack needle old_end fuel
            { st with position := st.position + (d + 1), memory := st.memory.map fun _ => 0 }
        | none => do
          let left ← firstMismatch haystack needle st.position (range (st.memory.getD 0) st.crit_pos).reverse
          match left with
          | some _ => do
            let memory ← match st.memory with
              | none => .ok none
              | some _ => do
                let m ← usizeSub needle.length st.period
                .ok (some m)
            TwoWay.next haystack needle old_end fuel { st with position := st.position + st.period, memory := memory }
          | none =>
            .ok (.match st.position (st.position + needle.length),
              { st with position := st.position + needle.length, memory := st.memory.map fun _ => 0 })

/-- `TwoWaySearcher::next_back::<RejectAndMatch>` (used in src/trim_okurigana.rs:93).  `end.wrapping_sub(needle.len())` is
out of range when it wraps around. -/
def TwoWay.nextBack (haystack needle : List UInt8) (old_end : Nat) : (fuel : Nat) → TwoWay → Res (SearchStep × TwoWay)
  | 0, _ => .error .diverge
  | fuel + 1, st =>
    match (if st.end < needle.length then none else haystack[st.end - needle.length]?) with
    | none => .ok (.reject 0 old_end, { st with «end» := 0 })
    | some front_byte =>
      if old_end ≠ st.end then .ok (.reject st.end old_end, st)
      else if !bytesetContains st.byteset front_byte then do
        let e ← usizeSub st.end needle.length
        TwoWay.nextBack haystack needle old_end fuel
          { st with «end» := e, memory_back := st.memory_back.map fun _ => needle.length }
      else do
        let crit := min st.crit_pos_back (st.memory_back.getD st.crit_pos_back)
        let start ← usizeSub st.end needle.length
        let left ← firstMismatch haystack needle start (range 0 crit).reverse
        match left with
        | some i => do
          let d ← usizeSub st.crit_pos_back i
          let e ← usizeSub st.end d
          TwoWay.nextBack haystack needle old_end fuel
            { st with «end» := e, memory_back := st.memory_back.map fun _ => needle.length }
        | none => do
          let right ← firstMismatch haystack needle start
            (range st.crit_pos_back (st.memory_back.getD needle.length))
          match right with
          | some _ => do
            let e ← usizeSub st.end st.period
            TwoWay.nextBack haystack needle old_end fuel
              { st with «end» := e, memory_back := st.memory_back.map fun _ => st.period }
          | none =>
            .ok (.match start (start + needle.length),
              { st with «end» := start, memory_back := st.memory_back.map fun _ => needle.length })

/-- `while !haystack.is_char_boundary(b) { b += 1 }` (used in src/trim_okurigana.rs:91) -/
def boundaryUp (haystack : List UInt8) : (fuel : Nat) → Nat → Res Nat
  | 0, _ => .error .diverge
  | fuel + 1, b => if isCharBoundary haystack b then .ok b else boundaryUp haystack fuel (b + 1)

/-- `while !haystack.is_char_boundary(a) { a -= 1 }` (used in src/trim_okurigana.rs:93) -/
def boundaryDown (haystack : List UInt8) : (fuel : Nat) → Nat → Res Nat
  | 0, _ => .error .diverge
  | fuel + 1, a =>
    if isCharBoundary haystack a then .ok a
    else do
      let a ← usizeSub a 1
      boundaryDown haystack fuel a

/-- `StrSearcher::next` for a non-empty needle (used in src/trim_okurigana.rs:91) -/
def stepForward (haystack needle : List UInt8) (st : TwoWay) : Res (SearchStep × TwoWay) :=
  if st.position = haystack.length then .ok (.done, st)
  else do
    let r ← TwoWay.next haystack needle st.position (haystack.length + 2) st
    match r.1 with
    | .reject a b => do
      let b ← boundaryUp haystack (haystack.length + 1) b
      .ok (.reject a b, { r.2 with position := max b r.2.position })
    | step => .ok (step, r.2)

/-- `StrSearcher::next_back` for a non-empty needle (used in src/trim_okurigana.rs:93) -/
def stepBack (haystack needle : List UInt8) (st : TwoWay) : Res (SearchStep × TwoWay) :=
  if st.end = 0 then .ok (.done, st)
  else do
    let r ← TwoWay.nextBack haystack needle st.end (haystack.length + 2) st
    match r.1 with
    | .reject a b => do
      let a ← boundaryDown haystack (haystack.length + 1) a
      .ok (.reject a b, { r.2 with «end» := min a r.2.end })
    | step => .ok (step, r.2)

/-- `Searcher::next_reject` (used in src/trim_okurigana.rs:91) -/
def nextReject {σ : Type} (next : σ → Res (SearchStep × σ)) : (fuel : Nat) → σ → Res (Option (Nat × Nat))
  | 0, _ => .error .diverge
  | fuel + 1, st => do
    let r ← next st
    match r.1 with
    | .reject a b => .ok (some (a, b))
    | .done => .ok none
    | .match _ _ => nextReject next fuel r.2

/-- `EmptyNeedle`: position and `is_match_fw` / `is_match_bw` (used in src/trim_okurigana.rs:91, 93) -/
structure EmptyNeedle where
  position : Nat
  is_match : Bool

/-- `StrSearcher::next` for the empty needle: a match at every character boundary, and the characters between them
rejected (used in src/trim_okurigana.rs:91) -/
def emptyForward (haystack : List UInt8) (st : EmptyNeedle) : Res (SearchStep × EmptyNeedle) :=
  if st.is_match then .ok (.match st.position st.position, { st with is_match := false })
  else match nextCodePoint (haystack.drop st.position) with
    | none => .ok (.done, { st with is_match := true })
    | some (_, rest) => .ok (.reject st.position (haystack.length - rest.length), ⟨haystack.length - rest.length, true⟩)

/-- `StrSearcher::next_back` for the empty needle (used in src/trim_okurigana.rs:93); `chars().next_back()` is the last
character -/
def emptyBack (haystack : List UInt8) (st : EmptyNeedle) : Res (SearchStep × EmptyNeedle) :=
  if st.is_match then .ok (.match st.position st.position, { st with is_match := false })
  else match (strCharIndices (haystack.take st.position)).getLast? with
    | none => .ok (.done, { st with is_match := true })
    | some (i, _) => .ok (.reject i st.position, ⟨i, true⟩)

/-- `let mut i = self.len(); if let Some((a, _)) = matcher.next_reject() { i = a; }` (used in src/trim_okurigana.rs:91) -/
def rejectStart (len : Nat) : Option (Nat × Nat) → Nat
  | some (a, _) => a
  | none => len

/-- `let mut j = 0; if let Some((_, b)) = matcher.next_reject_back() { j = b; }` (used in src/trim_okurigana.rs:93) -/
def rejectEnd : Option (Nat × Nat) → Nat
  | some (_, b) => b
  | none => 0

/-- `str::trim_start_matches` (used in src/trim_okurigana.rs:91) -/
def trim_start_matches (haystack needle : List UInt8) : Res (List UInt8) := do
  let r ← if needle.isEmpty then nextReject (emptyForward haystack) (haystack.length + 2) ⟨0, true⟩
    else do
      let st ← TwoWay.new needle haystack.length
      nextReject (stepForward haystack needle) (haystack.length + 2) st
  strSlice haystack (rejectStart haystack.length r) haystack.length

/-- `str::trim_end_matches` (used in src/trim_okurigana.rs:93) -/
def trim_end_matches (haystack needle : List UInt8) : Res (List UInt8) := do
  let r ← if needle.isEmpty then nextReject (emptyBack haystack) (haystack.length + 2) ⟨haystack.length, true⟩
    else do
      let st ← TwoWay.new needle haystack.length
      nextReject (stepBack haystack needle) (haystack.length + 2) st
  strSlice haystack 0 (rejectEnd r)

/-- src/trim_okurigana.rs:66-95 on bytes, with the matcher of the standard library -/
def trim_okurigana (input : List UInt8) (trim_from_start : Bool) (match_kanji : Option (List UInt8)) :
    Res (List UInt8) := do
  let unsuitable ← trimGuard (strChars input) trim_from_start (match_kanji.map strChars)
  if unsuitable then .ok input
  else
    let tokens := trimTokensBytes input match_kanji
    if tokens.isEmpty then .ok input
    else if trim_from_start then do
      let t ← index tokens 0
      trim_start_matches input t
    else do
      let t ← unwrap tokens.getLast?
      trim_end_matches input t

end WanaKana.StrSearcher
