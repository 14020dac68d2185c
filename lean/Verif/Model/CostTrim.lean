import Verif.Model.GroupBy
import Verif.Model.StrSearcher
/-! # The work done by the tokenizer and by `trim_okurigana`

The programs of `Model/GroupBy.lean` and `Model/StrSearcher.lean` with a counter `steps`, as in `Model/Cost.lean`: one step for
every round of a loop, every byte or character that is read, compared or written, and every key computed.  `C109_same` shows
that the counter is the only difference.

Simplifications: the type of a character counts as one step (fixed tables), an early exit of a comparison is not credited, and
moving the rest of a buffer counts one step per element. -/

namespace WanaKana.Itertools

section
variable {κ : Type} [DecidableEq κ] (key : Char → κ)

/-- the work of `step`, in the order of its cases: `lookup_buffer` looks at most at all groups in the buffer and moves them
once, `step_current` reads an element and computes its key, `step_buffering` reads at most the whole rest and adds at most
`top_group` groups (used in src/tokenize.rs:116,147) -/
def stepCost (client : Nat) (st : GroupInner κ) : Nat :=
  if client < st.oldest_buffered_group then 1
  else if client < st.top_group ∨ (client = st.top_group ∧ st.buffer.length > st.top_group - st.bottom_group) then
    3 + 2 * st.buffer.length
  else if st.done then 1
  else if st.top_group = client then 3
  else 3 + 3 * st.iter.length + st.top_group

/-- `group.collect()` with a counter (src/tokenize.rs:117, 148) -/
def collectGroupC (client : Nat) : (fuel : Nat) → Str → GroupInner κ → Nat → Res ((Str × GroupInner κ) × Nat)
  | 0, _, _, _ => .error .diverge
  | fuel + 1, acc, st, steps => do
    let r ← step key client st
    match r.1 with
    | none => .ok ((acc, r.2), steps + 1 + stepCost client st)
    | some c => collectGroupC client fuel (acc ++ [c]) r.2 (steps + 2 + stepCost client st)

/-- the loop over the groups with a counter: `group_key` reads an element and computes its key, then the group is
collected, dropped and pushed (src/tokenize.rs:147-149) -/
def groupsLoopC (n : Nat) : (fuel : Nat) → (index : Nat) → GroupInner κ → List (κ × Str) → Nat →
    Res (List (κ × Str) × Nat)
  | 0, _, _, _, _ => .error .diverge
  | fuel + 1, index, st, result, steps => do
    let r ← step key index st
    match r.1 with
    | none => .ok (result, steps + 1 + stepCost index st)
    | some elt => do
      let k ← groupKey key r.2
      let g ← collectGroupC key index n [elt] k.2 (steps + 4 + stepCost index st)
      groupsLoopC n fuel (index + 1) (dropGroup index g.1.2) (result ++ [(k.1, g.1.1)]) (g.2 + 2)

/-- the loop of src/tokenize.rs:147-149 from the start, with a counter -/
def groupByC (s : Str) (steps : Nat) : Res (List (κ × Str) × Nat) :=
  groupsLoopC key (s.length + 1) (s.length + 1) 0 (.new s) [] steps

end

/-- src/tokenize.rs:145-151 with a counter -/
def tokenize_detailedC (input : Str) (compact : Bool) (steps : Nat) : Res (List (TokenType × Str) × Nat) :=
  groupByC (fun elt => get_type elt compact) input steps

/-- src/tokenize.rs:114-120 with a counter -/
def tokenize_with_optC (input : Str) (compact : Bool) (steps : Nat) : Res (List Str × Nat) := do
  let r ← groupByC (fun elt => get_type elt compact) input steps
  .ok (r.1.map fun p => p.2, r.2)

end WanaKana.Itertools

namespace WanaKana.StrSearcher

/-- the loop of `TwoWaySearcher::maximal_suffix` with a counter (used in src/trim_okurigana.rs:91, 93) -/
def maximalSuffixLoopC (arr : List UInt8) (order_greater : Bool) :
    (fuel left right offset period : Nat) → (steps : Nat) → Res ((Nat × Nat) × Nat)
  | 0, _, _, _, _, _ => .error .diverge
  | fuel + 1, left, right, offset, period, steps =>
    match arr[right + offset]? with
    | none => .ok ((left, period), steps + 1)
    | some a => do
      let b ← index arr (left + offset)
      if (decide (a < b) && !order_greater) || (decide (a > b) && order_greater) then do
        let p ← usizeSub (right + offset + 1) left
        maximalSuffixLoopC arr order_greater fuel left (right + offset + 1) 0 p (steps + 1)
      else if a = b then
        if offset + 1 = period then
          maximalSuffixLoopC arr order_greater fuel left (right + offset + 1) 0 period (steps + 1)
        else maximalSuffixLoopC arr order_greater fuel left right (offset + 1) period (steps + 1)
      else maximalSuffixLoopC arr order_greater fuel right (right + 1) 0 1 (steps + 1)

/-- `TwoWaySearcher::maximal_suffix` with a counter (used in src/trim_okurigana.rs:91, 93) -/
def maximalSuffixC (arr : List UInt8) (order_greater : Bool) (steps : Nat) : Res ((Nat × Nat) × Nat) :=
  maximalSuffixLoopC arr order_greater ((arr.length + 1) * (arr.length + 1)) 0 1 0 1 steps

/-- the loop of `TwoWaySearcher::reverse_maximal_suffix` with a counter (used in src/trim_okurigana.rs:91, 93) -/
def reverseMaximalSuffixLoopC (arr : List UInt8) (known_period : Nat) (order_greater : Bool) :
    (fuel left right offset period : Nat) → (steps : Nat) → Res (Nat × Nat)
  | 0, _, _, _, _, _ => .error .diverge
  | fuel + 1, left, right, offset, period, steps =>
    if right + offset < arr.length then do
      let i ← usizeSub arr.length (1 + right + offset)
      let a ← index arr i
      let j ← usizeSub arr.length (1 + left + offset)
      let b ← index arr j
      let (left, right, offset, period) ←
        if (decide (a < b) && !order_greater) || (decide (a > b) && order_greater) then do
          let p ← usizeSub (right + offset + 1) left
          .ok (left, right + offset + 1, 0, p)
        else if a = b then
          if offset + 1 = period then .ok (left, right + offset + 1, 0, period)
          else .ok (left, right, offset + 1, period)
        else .ok (right, right + 1, 0, 1)
      if period = known_period then .ok (left, steps + 1)
      else reverseMaximalSuffixLoopC arr known_period order_greater fuel left right offset period (steps + 1)
    else .ok (left, steps + 1)

/-- `TwoWaySearcher::reverse_maximal_suffix` with a counter (used in src/trim_okurigana.rs:91, 93) -/
def reverseMaximalSuffixC (arr : List UInt8) (known_period : Nat) (order_greater : Bool) (steps : Nat) : Res (Nat × Nat) :=
  reverseMaximalSuffixLoopC arr known_period order_greater ((arr.length + 1) * (arr.length + 1)) 0 1 0 1 steps

/-- `TwoWaySearcher::new` with a counter: also one step for every byte compared and every byte put into the set (used in
src/trim_okurigana.rs:91, 93) -/
def TwoWay.newC (needle : List UInt8) (haystackLen : Nat) (steps : Nat) : Res (TwoWay × Nat) := do
  let f ← maximalSuffixC needle false steps
  let t ← maximalSuffixC needle true f.2
  let crit_pos := if f.1.1 > t.1.1 then f.1.1 else t.1.1
  let period := if f.1.1 > t.1.1 then f.1.2 else t.1.2
  let u ← slice needle 0 crit_pos
  let v ← slice needle period (period + crit_pos)
  if u = v then do
    let rf ← reverseMaximalSuffixC needle period false (t.2 + u.length)
    let rt ← reverseMaximalSuffixC needle period true rf.2
    let crit_pos_back ← usizeSub needle.length (max rf.1 rt.1)
    let b ← slice needle 0 period
    .ok ({ crit_pos := crit_pos, crit_pos_back := crit_pos_back, period := period, byteset := bytesetCreate b,
           position := 0, «end» := haystackLen, memory := some 0, memory_back := some needle.length }, rt.2 + b.length)
  else do
    let l ← usizeSub needle.length crit_pos
    .ok ({ crit_pos := crit_pos, crit_pos_back := crit_pos, period := max crit_pos l + 1, byteset := bytesetCreate needle,
           position := 0, «end» := haystackLen, memory := none, memory_back := none }, t.2 + u.length + needle.length)

/-- `TwoWaySearcher::next::<RejectAndMatch>` with a counter (used in src/trim_okurigana.rs:91) -/
def TwoWay.nextC (haystack needle : List UInt8) (old_end : Nat) : (fuel : Nat) → TwoWay → Nat →
    Res ((SearchStep × TwoWay) × Nat)
  | 0, _, _ => .error .diverge
  | fuel + 1, st, steps => do
    let needle_last ← usizeSub needle.length 1
    match haystack[st.position + needle_last]? with
    | none => .ok ((.reject old_end haystack.length, { st with position := haystack.length }), steps + 1)
    | some tail_byte =>
      if old_end ≠ st.position then .ok ((.reject old_end st.position, st), steps + 1)
      else if !bytesetContains st.byteset tail_byte then
        TwoWay.nextC haystack needle old_end fuel
          { st with position := st.position + needle.length, memory := st.memory.map fun _ => 0 } (steps + 1)
      else do
        let start := max st.crit_pos (st.memory.getD 0)
        let right ← firstMismatch haystack needle st.position (range start needle.length)
        let steps := steps + 1 + (range start needle.length).length
        match right with
        | some i => do
          let d ← usizeSub i st.crit_pos
          TwoWay.nextC haystack needle old_end fuel
            { st with position := st.position + (d + 1), memory := st.memory.map fun _ => 0 } steps
        | none => do
          let left ← firstMismatch haystack needle st.position (range (st.memory.getD 0) st.crit_pos).reverse
          let steps := steps + (range (st.memory.getD 0) st.crit_pos).length
          match left with
          | some _ => do
            let memory ← match st.memory with
              | none => .ok none
              | some _ => do
                let m ← usizeSub needle.length st.period
                .ok (some m)
            TwoWay.nextC haystack needle old_end fuel { st with position := st.position + st.period, memory := memory } steps
          | none =>
            .ok ((.match st.position (st.position + needle.length),
              { st with position := st.position + needle.length, memory := st.memory.map fun _ => 0 }), steps)

/-- `TwoWaySearcher::next_back::<RejectAndMatch>` with a counter (used in src/trim_okurigana.rs:93) -/
def TwoWay.nextBackC (haystack needle : List UInt8) (old_end : Nat) : (fuel : Nat) → TwoWay → Nat →
    Res ((SearchStep × TwoWay) × Nat)
  | 0, _, _ => .error .diverge
  | fuel + 1, st, steps =>
    match (if st.end < needle.length then none else haystack[st.end - needle.length]?) with
    | none => .ok ((.reject 0 old_end, { st with «end» := 0 }), steps + 1)
    | some front_byte =>
      if old_end ≠ st.end then .ok ((.reject st.end old_end, st), steps + 1)
      else if !bytesetContains st.byteset front_byte then do
        let e ← usizeSub st.end needle.length
        TwoWay.nextBackC haystack needle old_end fuel
          { st with «end» := e, memory_back := st.memory_back.map fun _ => needle.length } (steps + 1)
      else do
        let crit := min st.crit_pos_back (st.memory_back.getD st.crit_pos_back)
        let start ← usizeSub st.end needle.length
        let left ← firstMismatch haystack needle start (range 0 crit).reverse
        let steps := steps + 1 + (range 0 crit).length
        match left with
        | some i => do
          let d ← usizeSub st.crit_pos_back i
          let e ← usizeSub st.end d
          TwoWay.nextBackC haystack needle old_end fuel
            { st with «end» := e, memory_back := st.memory_back.map fun _ => needle.length } steps
        | none => do
          let right ← firstMismatch haystack needle start
            (range st.crit_pos_back (st.memory_back.getD needle.length))
          let steps := steps + (range st.crit_pos_back (st.memory_back.getD needle.length)).length
          match right with
          | some _ => do
            let e ← usizeSub st.end st.period
            TwoWay.nextBackC haystack needle old_end fuel
              { st with «end» := e, memory_back := st.memory_back.map fun _ => st.period } steps
          | none =>
            .ok ((.match start (start + needle.length),
              { st with «end» := start, memory_back := st.memory_back.map fun _ => needle.length }), steps)

/-- `while !haystack.is_char_boundary(b) { b += 1 }` with a counter (used in src/trim_okurigana.rs:91) -/
def boundaryUpC (haystack : List UInt8) : (fuel : Nat) → Nat → Nat → Res (Nat × Nat)
  | 0, _, _ => .error .diverge
  | fuel + 1, b, steps =>
    if isCharBoundary haystack b then .ok (b, steps + 1) else boundaryUpC haystack fuel (b + 1) (steps + 1)

/-- `while !haystack.is_char_boundary(a) { a -= 1 }` with a counter (used in src/trim_okurigana.rs:93) -/
def boundaryDownC (haystack : List UInt8) : (fuel : Nat) → Nat → Nat → Res (Nat × Nat)
  | 0, _, _ => .error .diverge
  | fuel + 1, a, steps =>
    if isCharBoundary haystack a then .ok (a, steps + 1)
    else do
      let a ← usizeSub a 1
      boundaryDownC haystack fuel a (steps + 1)

/-- `StrSearcher::next` for a non-empty needle, with a counter (used in src/trim_okurigana.rs:91) -/
def stepForwardC (haystack needle : List UInt8) (st : TwoWay) (steps : Nat) : Res ((SearchStep × TwoWay) × Nat) :=
  if st.position = haystack.length then .ok ((.done, st), steps + 1)
  else do
    let r ← TwoWay.nextC haystack needle st.position (haystack.length + 2) st (steps + 1)
    match r.1.1 with
    | .reject a b => do
      let b ← boundaryUpC haystack (haystack.length + 1) b r.2
      .ok ((.reject a b.1, { r.1.2 with position := max b.1 r.1.2.position }), b.2)
    | step => .ok ((step, r.1.2), r.2)

/-- `StrSearcher::next_back` for a non-empty needle, with a counter (used in src/trim_okurigana.rs:93) -/
def stepBackC (haystack needle : List UInt8) (st : TwoWay) (steps : Nat) : Res ((SearchStep × TwoWay) × Nat) :=
  if st.end = 0 then .ok ((.done, st), steps + 1)
  else do
    let r ← TwoWay.nextBackC haystack needle st.end (haystack.length + 2) st (steps + 1)
    match r.1.1 with
    | .reject a b => do
      let a ← boundaryDownC haystack (haystack.length + 1) a r.2
      .ok ((.reject a.1 b, { r.1.2 with «end» := min a.1 r.1.2.end }), a.2)
    | step => .ok ((step, r.1.2), r.2)

/-- `Searcher::next_reject` with a counter (used in src/trim_okurigana.rs:91) -/
def nextRejectC {σ : Type} (next : σ → Nat → Res ((SearchStep × σ) × Nat)) : (fuel : Nat) → σ → Nat →
    Res (Option (Nat × Nat) × Nat)
  | 0, _, _ => .error .diverge
  | fuel + 1, st, steps => do
    let r ← next st (steps + 1)
    match r.1.1 with
    | .reject a b => .ok (some (a, b), r.2)
    | .done => .ok (none, r.2)
    | .match _ _ => nextRejectC next fuel r.1.2 r.2

/-- `StrSearcher::next` for the empty needle reads at most one character (used in src/trim_okurigana.rs:91) -/
def emptyForwardC (haystack : List UInt8) (st : EmptyNeedle) (steps : Nat) : Res ((SearchStep × EmptyNeedle) × Nat) := do
  let r ← emptyForward haystack st
  .ok (r, steps + 2)

/-- `StrSearcher::next_back` for the empty needle reads at most one character (used in src/trim_okurigana.rs:93) -/
def emptyBackC (haystack : List UInt8) (st : EmptyNeedle) (steps : Nat) : Res ((SearchStep × EmptyNeedle) × Nat) := do
  let r ← emptyBack haystack st
  .ok (r, steps + 2)

/-- the search in `str::trim_start_matches` with a counter (used in src/trim_okurigana.rs:91) -/
def searchStartC (haystack needle : List UInt8) (steps : Nat) : Res (Option (Nat × Nat) × Nat) :=
  if needle.isEmpty then nextRejectC (emptyForwardC haystack) (haystack.length + 2) ⟨0, true⟩ steps
  else do
    let st ← TwoWay.newC needle haystack.length steps
    nextRejectC (stepForwardC haystack needle) (haystack.length + 2) st.1 st.2

/-- `str::trim_start_matches` with a counter (used in src/trim_okurigana.rs:91) -/
def trim_start_matchesC (haystack needle : List UInt8) (steps : Nat) : Res (List UInt8 × Nat) := do
  let r ← searchStartC haystack needle steps
  let s ← strSlice haystack (rejectStart haystack.length r.1) haystack.length
  .ok (s, r.2 + 1)

/-- the search in `str::trim_end_matches` with a counter (used in src/trim_okurigana.rs:93) -/
def searchEndC (haystack needle : List UInt8) (steps : Nat) : Res (Option (Nat × Nat) × Nat) :=
  if needle.isEmpty then nextRejectC (emptyBackC haystack) (haystack.length + 2) ⟨haystack.length, true⟩ steps
  else do
    let st ← TwoWay.newC needle haystack.length steps
    nextRejectC (stepBackC haystack needle) (haystack.length + 2) st.1 st.2

/-- `str::trim_end_matches` with a counter (used in src/trim_okurigana.rs:93) -/
def trim_end_matchesC (haystack needle : List UInt8) (steps : Nat) : Res (List UInt8 × Nat) := do
  let r ← searchEndC haystack needle steps
  let s ← strSlice haystack 0 (rejectEnd r.1)
  .ok (s, r.2 + 1)

/-- the text that is tokenized (src/trim_okurigana.rs:81-85) -/
def tokenSourceBytes (input : List UInt8) (match_kanji : Option (List UInt8)) : List UInt8 :=
  match match_kanji with
  | some match_kanji => match_kanji
  | none => input

/-- src/trim_okurigana.rs:66-95 on bytes with a counter.  The checks of lines 71-76 read the text at most twice, the kanji
once and one character more; `chars().last()` reads from the end.  The tokens are collected byte by byte, and finding the last
one walks over all of them. -/
def trim_okuriganaC (input : List UInt8) (trim_from_start : Bool) (match_kanji : Option (List UInt8)) (steps : Nat) :
    Res (List UInt8 × Nat) := do
  let unsuitable ← trimGuard (strChars input) trim_from_start (match_kanji.map strChars)
  let steps := steps + (strChars input).length + 1 + (strChars (tokenSourceBytes input match_kanji)).length
  if unsuitable then .ok (input, steps)
  else do
    let r ← Itertools.tokenize_with_optC (strChars (tokenSourceBytes input match_kanji)) false steps
    let tokens := r.1.map strCollect
    let steps := r.2 + tokens.flatten.length
    if tokens.isEmpty then .ok (input, steps)
    else if trim_from_start then do
      let t ← index tokens 0
      trim_start_matchesC input t steps
    else do
      let t ← unwrap tokens.getLast?
      trim_end_matchesC input t (steps + tokens.length)

end WanaKana.StrSearcher
