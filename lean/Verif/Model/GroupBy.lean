import Verif.Model.Tokenize
/-! # `itertools::group_by` as it is implemented

`Model/Tokenize.lean` takes `group_by` to be "maximal runs of equal keys".  Here is its implementation in itertools 0.10.5
(src/groupbylib.rs of that crate): a shared state (`GroupInner`) that the iterator over the groups and the iterators over
the elements of a group advance in turn, with a buffer for groups that are asked for late.  The buffer is never filled by
the loops of src/tokenize.rs:116-118, 147-149, but the code that looks into it runs.  `debug_assert!`s of the library are
not part of the model. -/

namespace WanaKana.Itertools

/-- `GroupInner` (used in src/tokenize.rs:116,147); `dropped_group` is `none` for `!0` -/
structure GroupInner (κ : Type) where
  iter : Str
  current_key : Option κ
  current_elt : Option Char
  done : Bool
  top_group : Nat
  oldest_buffered_group : Nat
  bottom_group : Nat
  buffer : List Str
  dropped_group : Option Nat

section
variable {κ : Type} [DecidableEq κ] (key : Char → κ)

/-- the state `group_by` starts with (used in src/tokenize.rs:116,147) -/
def GroupInner.new (s : Str) : GroupInner κ :=
  { iter := s, current_key := none, current_elt := none, done := false, top_group := 0, oldest_buffered_group := 0,
    bottom_group := 0, buffer := [], dropped_group := none }

/-- `next_element` (used in src/tokenize.rs:116,147) -/
def nextElement (st : GroupInner κ) : Option Char × GroupInner κ :=
  match st.iter with
  | [] => (none, { st with done := true })
  | c :: cs => (some c, { st with iter := cs })

/-- `while self.buffer.get(oldest - bottom).map_or(false, |buf| buf.len() == 0) { oldest += 1 }` in `lookup_buffer`
(used in src/tokenize.rs:116,147) -/
def skipEmpty (buffer : List Str) (bottom : Nat) : (fuel : Nat) → (oldest : Nat) → Res Nat
  | 0, _ => .error .diverge
  | fuel + 1, oldest => do
    let i ← usizeSub oldest bottom
    match buffer[i]? with
    | some [] => skipEmpty buffer bottom fuel (oldest + 1)
    | _ => .ok oldest

/-- `lookup_buffer` (used in src/tokenize.rs:116,147) -/
def lookupBuffer (client : Nat) (st : GroupInner κ) : Res (Option Char × GroupInner κ) := do
  let bufidx ← usizeSub client st.bottom_group
  if client < st.oldest_buffered_group then .ok (none, st)
  else
    let elt := (st.buffer[bufidx]?).bind List.head?
    let st := { st with buffer := st.buffer.modify bufidx List.tail }
    if elt.isNone && client == st.oldest_buffered_group then do
      let oldest ← skipEmpty st.buffer st.bottom_group (st.buffer.length + 1) (st.oldest_buffered_group + 1)
      let nclear ← usizeSub oldest st.bottom_group
      if nclear > 0 && nclear ≥ st.buffer.length / 2 then
        .ok (elt, { st with oldest_buffered_group := oldest, buffer := st.buffer.drop nclear, bottom_group := oldest })
      else .ok (elt, { st with oldest_buffered_group := oldest })
    else .ok (elt, st)

/-- `step_current` (used in src/tokenize.rs:116,147) -/
def stepCurrent (st : GroupInner κ) : Option Char × GroupInner κ :=
  match st.current_elt with
  | some c => (some c, { st with current_elt := none })
  | none =>
    match nextElement st with
    | (none, st) => (none, st)
    | (some elt, st) =>
      match st.current_key with
      | some old_key =>
        if old_key ≠ key elt then
          (none, { st with current_key := some (key elt), current_elt := some elt, top_group := st.top_group + 1 })
        else (some elt, { st with current_key := some (key elt) })
      | none => (some elt, { st with current_key := some (key elt) })

/-- the loop of `step_buffering`: the rest of the current group and the first element of the next one (used in
src/tokenize.rs:116,147) -/
def bufferLoop (keep : Bool) : (rest : Str) → (current_key : Option κ) → (group : Str) →
    Str × Option κ × Bool × Str × Option Char
  | [], k, group => ([], k, true, group, none)
  | elt :: rest, k, group =>
    match k with
    | some old_key =>
      if old_key ≠ key elt then (rest, some (key elt), false, group, some elt)
      else bufferLoop keep rest (some (key elt)) (if keep then group ++ [elt] else group)
    | none => bufferLoop keep rest (some (key elt)) (if keep then group ++ [elt] else group)

/-- `push_next_group` (used in src/tokenize.rs:116,147) -/
def pushNextGroup (group : Str) : (fuel : Nat) → GroupInner κ → Res (GroupInner κ)
  | 0, _ => .error .diverge
  | fuel + 1, st => do
    let d ← usizeSub st.top_group st.bottom_group
    if d > st.buffer.length then
      if st.buffer.isEmpty then
        pushNextGroup group fuel { st with bottom_group := st.bottom_group + 1,
                                           oldest_buffered_group := st.oldest_buffered_group + 1 }
      else pushNextGroup group fuel { st with buffer := st.buffer ++ [[]] }
    else .ok { st with buffer := st.buffer ++ [group] }

/-- `step_buffering` (used in src/tokenize.rs:116,147) -/
def stepBuffering (st : GroupInner κ) : Res (Option Char × GroupInner κ) := do
  let keep := some st.top_group != st.dropped_group
  let group := match st.current_elt with
    | some elt => if keep then [elt] else []
    | none => []
  let (rest, k, done, group, first_elt) := bufferLoop key keep st.iter st.current_key group
  let st := { st with iter := rest, current_key := k, current_elt := none, done := done }
  let st ← if keep then pushNextGroup group (st.top_group + 1) st else .ok st
  if first_elt.isSome then .ok (first_elt, { st with top_group := st.top_group + 1 })
  else .ok (first_elt, st)

/-- `step` (used in src/tokenize.rs:116,147) -/
def step (client : Nat) (st : GroupInner κ) : Res (Option Char × GroupInner κ) :=
  if client < st.oldest_buffered_group then .ok (none, st)
  else do
    let inBuffer ←
      if client < st.top_group then .ok true
      else if client = st.top_group then do
        let d ← usizeSub st.top_group st.bottom_group
        .ok (decide (st.buffer.length > d))
      else .ok false
    if inBuffer then lookupBuffer client st
    else if st.done then .ok (none, st)
    else if st.top_group = client then .ok (stepCurrent key st)
    else stepBuffering key st

/-- `group_key` (used in src/tokenize.rs:116,147) -/
def groupKey (st : GroupInner κ) : Res (κ × GroupInner κ) := do
  let old_key ← unwrap st.current_key
  match nextElement { st with current_key := none } with
  | (none, st) => .ok (old_key, st)
  | (some elt, st) =>
    .ok (old_key, { st with current_key := some (key elt), current_elt := some elt,
                            top_group := if old_key ≠ key elt then st.top_group + 1 else st.top_group })

/-- `group.collect()`: `Group::next` until it returns `None`, after the first element (src/tokenize.rs:117, 148) -/
def collectGroup (client : Nat) : (fuel : Nat) → Str → GroupInner κ → Res (Str × GroupInner κ)
  | 0, _, _ => .error .diverge
  | fuel + 1, acc, st => do
    let r ← step key client st
    match r.1 with
    | none => .ok (acc, r.2)
    | some c => collectGroup client fuel (acc ++ [c]) r.2

/-- `drop_group`: the group is dropped at the end of the loop body (src/tokenize.rs:117, 148) -/
def dropGroup (client : Nat) (st : GroupInner κ) : GroupInner κ :=
  match st.dropped_group with
  | none => { st with dropped_group := some client }
  | some d => if client > d then { st with dropped_group := some client } else st

/-- `for (key, group) in &chars.group_by(f) { result.push((key, group.collect())) }`: src/tokenize.rs:147-149.  `index`
counts the calls of `Groups::next`; `n` bounds the number of steps. -/
def groupsLoop (n : Nat) : (fuel : Nat) → (index : Nat) → GroupInner κ → List (κ × Str) → Res (List (κ × Str))
  | 0, _, _, _ => .error .diverge
  | fuel + 1, index, st, result => do
    let r ← step key index st
    match r.1 with
    | none => .ok result
    | some elt => do
      let k ← groupKey key r.2
      let g ← collectGroup key index n [elt] k.2
      groupsLoop n fuel (index + 1) (dropGroup index g.2) (result ++ [(k.1, g.1)])

/-- the loop of src/tokenize.rs:147-149 from the start -/
def groupBy (s : Str) : Res (List (κ × Str)) :=
  groupsLoop key (s.length + 1) (s.length + 1) 0 (.new s) []

end

/-- src/tokenize.rs:145-151 -/
def tokenize_detailed (input : Str) (compact : Bool) : Res (List (TokenType × Str)) :=
  groupBy (fun elt => get_type elt compact) input

/-- src/tokenize.rs:114-120 -/
def tokenize_with_opt (input : Str) (compact : Bool) : Res (List Str) := do
  let r ← groupBy (fun elt => get_type elt compact) input
  .ok (r.map fun p => p.2)

end WanaKana.Itertools
