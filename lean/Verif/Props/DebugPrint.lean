import Verif.Model.DebugPrint
import Verif.Spec.RustTokens
/-! # C119: what the generators print is the tree they built -/

namespace WanaKana.C119
open WanaKana Upstream Spec

/-! ## Indentation -/

/-- `n` spaces behind every line break -/
def ind (n : Nat) (s : Str) : Str :=
  s.flatMap fun c => if c = '\n' then '\n' :: List.replicate n ' ' else [c]

theorem ind_append (n : Nat) (a b : Str) : ind n (a ++ b) = ind n a ++ ind n b := by
  simp [ind]

theorem ind_zero (s : Str) : ind 0 s = s := by
  induction s with
  | nil => rfl
  | cons c s ih =>
    simp only [ind, List.flatMap_cons] at ih ⊢
    rw [ih]
    split
    · simp_all
    · rfl

theorem ind_none (n : Nat) {s : Str} (h : '\n' ∉ s) : ind n s = s := by
  induction s with
  | nil => rfl
  | cons c s ih =>
    simp only [List.mem_cons, not_or] at h
    have := ih h.2
    simp only [ind, List.flatMap_cons] at this ⊢
    rw [this, if_neg (fun e => h.1 e.symm)]
    rfl

theorem ind_spaces (n m : Nat) : ind n (List.replicate m ' ') = List.replicate m ' ' := by
  apply ind_none
  intro h
  exact absurd (List.eq_of_mem_replicate h) (by decide)

theorem ind_ind (n m : Nat) (s : Str) : ind n (ind m s) = ind (n + m) s := by
  induction s with
  | nil => rfl
  | cons c s ih =>
    rw [show c :: s = [c] ++ s from rfl, ind_append, ind_append, ind_append, ih]
    congr 1
    by_cases h : c = '\n'
    · subst h
      show ind n ('\n' :: List.replicate m ' ' ++ []) = '\n' :: List.replicate (n + m) ' ' ++ []
      rw [List.append_nil, List.append_nil,
        show ('\n' :: List.replicate m ' ') = ['\n'] ++ List.replicate m ' ' from rfl, ind_append,
        ind_spaces, show ind n ['\n'] = '\n' :: List.replicate n ' ' from by simp [ind],
        List.cons_append, List.replicate_append_replicate]
    · have : ∀ k, ind k [c] = [c] := fun k => by simp [ind, h]
      simp only [this]

theorem pad_eq (a : Str) : ∀ b : Bool,
    pad b (a ++ ['\n']) = (if b then "    ".toList else []) ++ ind 4 a ++ ['\n'] := by
  induction a with
  | nil => intro b; cases b <;> rfl
  | cons c a ih =>
    intro b
    rw [List.cons_append, pad, ih, show c :: a = [c] ++ a from rfl, ind_append]
    by_cases h : c = '\n'
    · subst h
      cases b <;> simp [ind, List.replicate]
    · have h2 : (c == '\n') = false := by simpa using h
      rw [h2]
      cases b <;> simp [ind, h]

theorem debugEntry_eq (v : Str) :
    debugEntry v = "    ".toList ++ ind 4 v ++ ",\n".toList := by
  have : v ++ ",\n".toList = (v ++ [',']) ++ ['\n'] := by simp
  rw [debugEntry, this, pad_eq, ind_append]
  simp [ind]

theorem debugField_eq (f v : Str) (h : '\n' ∉ f) :
    debugField f v = "    ".toList ++ f ++ ": ".toList ++ ind 4 v ++ ",\n".toList := by
  have : f ++ ": ".toList ++ v ++ ",\n".toList = (f ++ ": ".toList ++ v ++ [',']) ++ ['\n'] := by simp
  rw [debugField, this, pad_eq, ind_append, ind_append, ind_append, ind_none 4 h]
  simp [ind]

/-! ## The reader on what is printed -/

/-- the reader meets `s` and writes `t`, whatever follows -/
def Reads (st : ReadState) (s : Str) (t : List Tok) (st' : ReadState) : Prop :=
  ∀ x, readFrom st (s ++ x) = (readFrom st' x).map (t ++ ·)

theorem Reads.trans {a b c : ReadState} {s s' : Str} {t t' : List Tok} (h : Reads a s t b)
    (h' : Reads b s' t' c) : Reads a (s ++ s') (t ++ t') c := by
  intro x
  rw [List.append_assoc, h, h', Option.map_map]
  congr 1
  funext y
  simp

theorem reads_nil (st : ReadState) : Reads st [] [] st := by
  intro x
  simp

theorem reads_step {st st' : ReadState} {c : Char} {t : List Tok} (h : step st c = some (t, st')) :
    Reads st [c] t st' := by
  intro x
  cases st <;> simp only [List.cons_append, List.nil_append, readFrom, h, Option.bind_some]

theorem reads_cons {a b d : ReadState} {c : Char} {s : Str} {t t' : List Tok}
    (h : step a c = some (t, b)) (h' : Reads b s t' d) : Reads a (c :: s) (t ++ t') d :=
  (reads_step h).trans h'

theorem reads_spaces (n : Nat) : Reads .out (List.replicate n ' ') [] .out := by
  induction n with
  | zero => exact reads_nil _
  | succ n ih => exact reads_cons (t := []) rfl ih

theorem reads_newline (n : Nat) : Reads .out ('\n' :: List.replicate n ' ') [] .out :=
  reads_cons (t := []) rfl (reads_spaces n)


/-- the reader on a known text -/
def run : ReadState → Str → Option (List Tok × ReadState)
  | st, [] => some ([], st)
  | st, c :: cs => (step st c).bind fun r => (run r.2 cs).map fun q => (r.1 ++ q.1, q.2)

theorem reads_run {s : Str} : ∀ {st st' : ReadState} {t : List Tok}, run st s = some (t, st') →
    Reads st s t st' := by
  induction s with
  | nil =>
    intro st st' t h
    simp only [run, Option.some.injEq, Prod.mk.injEq] at h
    obtain ⟨rfl, rfl⟩ := h
    exact reads_nil _
  | cons c s ih =>
    intro st st' t h
    simp only [run, Option.bind_eq_some_iff, Option.map_eq_some_iff] at h
    obtain ⟨⟨t1, st1⟩, h1, ⟨t2, st2⟩, h2, e⟩ := h
    simp only [Prod.mk.injEq] at e
    obtain ⟨rfl, rfl⟩ := e
    exact reads_cons h1 (ih h2)

/-- `s` reads as the tokens `t` when something that is not a letter follows -/
def Value (s : Str) (t : List Tok) : Prop :=
  Reads .out s t .out ∨ ∃ w t0, t = t0 ++ [.word w] ∧ Reads .out s t0 (.word w)

theorem Value.then_comma {s : Str} {t : List Tok} (h : Value s t) :
    Reads .out (s ++ [',']) (t ++ [.punct ',']) .out := by
  rcases h with h | ⟨w, t0, rfl, h⟩
  · exact h.trans (reads_step rfl)
  · rw [List.append_assoc]
    exact h.trans (reads_step (t := [.word w] ++ [.punct ',']) rfl)

theorem Value.then_newline {s : Str} {t : List Tok} (h : Value s t) :
    readTokens (s ++ ['\n']) = some t := by
  have : Reads .out (s ++ ['\n']) t .out := by
    rcases h with h | ⟨w, t0, rfl, h⟩
    · rw [← List.append_nil t]
      exact h.trans (reads_step rfl)
    · exact h.trans (reads_step (t := [.word w]) rfl)
  have := this []
  rw [List.append_nil] at this
  rw [readTokens, this]
  simp [readFrom]

/-! ## Literals -/

theorem hexDigit_ne {d : Nat} (h : d < 16) : hexDigit d ≠ '}' ∧ hexDigit d ≠ '\n' ∧
    hexValue (hexDigit d) = some d := by
  have : ∀ d : Fin 16, hexDigit d ≠ '}' ∧ hexDigit d ≠ '\n' ∧
    hexValue (hexDigit d) = some d.val := by decide
  exact this ⟨d, h⟩

theorem reads_hexDigit (q : Char) (acc : Str) (v k : Nat) {d : Nat} (h : d < 16) :
    Reads (.hex q acc v k) [hexDigit d] [] (.hex q acc (16 * v + d) (k + 1)) := by
  apply reads_step
  have := hexDigit_ne h
  simp only [step, if_neg this.1, this.2.2, Option.map_some]

theorem reads_hexDigits (q : Char) (acc : Str) (n : Nat) : ∀ b : Nat, n < 16 ^ b → 1 ≤ b →
    ∃ k, 1 ≤ k ∧ k ≤ b ∧ Reads (.hex q acc 0 0) (hexDigits n) [] (.hex q acc n k) := by
  induction n using Nat.strongRecOn with
  | ind n ih =>
    intro b hb h1
    rw [hexDigits]
    split
    next h =>
      refine ⟨1, Nat.le_refl _, h1, ?_⟩
      have := reads_hexDigit q acc 0 0 h
      simpa using this
    next h =>
      have h16 : 16 ≤ n := Nat.le_of_not_lt h
      obtain ⟨b, rfl⟩ : ∃ c, b = c + 1 := ⟨b - 1, by omega⟩
      have hb' : n / 16 < 16 ^ b := by
        apply Nat.div_lt_of_lt_mul
        rw [Nat.pow_succ] at hb
        omega
      have hb1 : 1 ≤ b := by
        cases b with
        | zero => simp at hb; omega
        | succ b => omega
      obtain ⟨k, hk1, hk2, hr⟩ := ih (n / 16) (by omega) b hb' hb1
      refine ⟨k + 1, by omega, by omega, ?_⟩
      have := hr.trans (reads_hexDigit q acc (n / 16) k (Nat.mod_lt n (by decide)))
      rwa [show 16 * (n / 16) + n % 16 = n from Nat.div_add_mod n 16] at this

theorem newline_hexDigits (n : Nat) : '\n' ∉ hexDigits n := by
  induction n using Nat.strongRecOn with
  | ind n ih =>
    rw [hexDigits]
    split
    next h => simpa using fun e => (hexDigit_ne h).2.1 e.symm
    next h =>
      simp only [List.mem_append, List.mem_singleton, not_or]
      exact ⟨ih _ (by omega), fun e => (hexDigit_ne (Nat.mod_lt n (by decide))).2.1 e.symm⟩

theorem newline_escape (u : Char → Bool) (q c : Char) (hq : q ≠ '\n') : '\n' ∉ escapeDebug u q c := by
  unfold escapeDebug
  repeat' split
  all_goals try decide
  · simp [Ne.symm hq]
  · simp only [List.mem_append, not_or]
    exact ⟨⟨by decide, newline_hexDigits _⟩, by decide⟩
  · simp only [List.mem_singleton]
    intro e
    next hn _ _ _ => exact hn e.symm

theorem reads_escape (u : Char → Bool) (q c : Char) (hq : q = '\'' ∨ q = '"') (acc : Str) :
    Reads (.lit q acc) (escapeDebug u q c) [] (.lit q (acc ++ [c])) := by
  have hqs : q ≠ '\\' := by rcases hq with rfl | rfl <;> decide
  have hbs : step (.lit q acc) '\\' = some ([], .esc q acc) := by
    simp only [step, if_neg (Ne.symm hqs), ite_true]
  unfold escapeDebug
  split
  · subst_vars; exact reads_cons hbs (reads_step rfl)
  split
  · subst_vars; exact reads_cons hbs (reads_step rfl)
  split
  · subst_vars; exact reads_cons hbs (reads_step rfl)
  split
  · subst_vars; exact reads_cons hbs (reads_step rfl)
  split
  · subst_vars; exact reads_cons hbs (reads_step rfl)
  split
  · subst_vars
    refine reads_cons hbs (reads_step ?_)
    rcases hq with rfl | rfl <;> rfl
  split
  · have hu : Reads (.lit q acc) "\\u{".toList [] (.hex q acc 0 0) :=
      reads_cons (s := ['u', '{']) hbs (reads_cons (t := []) (b := .uni q acc) (s := ['{']) rfl (reads_step rfl))
    obtain ⟨k, h1, h6, hr⟩ := reads_hexDigits q acc c.toNat 6 (by
      have := c.valid
      show c.val.toNat < _
      rcases this with h | h
      · exact Nat.lt_trans h (by decide)
      · exact Nat.lt_trans h.2 (by decide)) (by decide)
    refine (hu.trans hr).trans (reads_step (c := '}') ?_)
    have hv : c.toNat.isValidChar := c.valid
    have hs : step (.hex q acc c.toNat k) '}' = if 1 ≤ k ∧ k ≤ 6 ∧ c.toNat.isValidChar then
        some ([], .lit q (acc ++ [Char.ofNat c.toNat])) else none := rfl
    rw [hs, if_pos ⟨h1, h6, hv⟩, Char.ofNat_toNat]
  · apply reads_step
    next h0 ht hr hn hb hq' hu =>
    simp only [step, if_neg hq', if_neg hb]
    rw [if_neg]
    simp [ht, hr, hn]

theorem reads_escapes (u : Char → Bool) (q : Char) (hq : q = '\'' ∨ q = '"') (s : Str) : ∀ acc : Str,
    Reads (.lit q acc) (s.flatMap (escapeDebug u q)) [] (.lit q (acc ++ s)) := by
  induction s with
  | nil => intro acc; rw [List.append_nil]; exact reads_nil _
  | cons c s ih =>
    intro acc
    rw [List.flatMap_cons]
    have := (reads_escape u q c hq acc).trans (ih (acc ++ [c]))
    rwa [List.append_assoc] at this

theorem newline_debugStr (u : Char → Bool) (s : Str) : '\n' ∉ debugStr u s := by
  intro h
  simp only [debugStr, List.cons_append, List.mem_cons, List.mem_append, List.mem_flatMap] at h
  rcases h with h | ⟨c, _, h⟩ | h
  · exact absurd h (by decide)
  · exact newline_escape u '"' c (by decide) h
  · simp at h

theorem newline_debugChar (u : Char → Bool) (c : Char) : '\n' ∉ debugChar u c := by
  intro h
  simp only [debugChar, List.cons_append, List.mem_cons, List.mem_append] at h
  rcases h with h | h | h
  · exact absurd h (by decide)
  · exact newline_escape u '\'' c (by decide) h
  · simp at h

theorem reads_debugStr (u : Char → Bool) (s : Str) : Reads .out (debugStr u s) [.string s] .out :=
  reads_cons (b := .lit '"' []) (t := []) rfl
    ((reads_escapes u '"' (Or.inr rfl) s []).trans (reads_step (t := [.string s]) rfl))

theorem reads_debugChar (u : Char → Bool) (c : Char) : Reads .out (debugChar u c) [.char [c]] .out :=
  reads_cons (b := .lit '\'' []) (t := []) rfl
    ((reads_escape u '\'' c (Or.inl rfl) []).trans (reads_step (t := [.char [c]]) rfl))

theorem value_debugStr (u : Char → Bool) (s : Str) (n : Nat) :
    Value (ind n (debugStr u s)) [.string s] := by
  rw [ind_none n (newline_debugStr u s)]
  exact .inl (reads_debugStr u s)

theorem value_debugChar (u : Char → Bool) (c : Char) (n : Nat) :
    Value (ind n (debugChar u c)) [.char [c]] := by
  rw [ind_none n (newline_debugChar u c)]
  exact .inl (reads_debugChar u c)

/-! ## Builders -/

theorem reads_entry {v : Str} {t : List Tok} (h : ∀ n, Value (ind n v) t) (n : Nat) :
    Reads .out (ind n (debugEntry v)) (t ++ [.punct ',']) .out := by
  rw [debugEntry_eq, ind_append, ind_append, ind_ind,
    show ind n "    ".toList = "    ".toList from ind_none n (by decide),
    show ind n ",\n".toList = [','] ++ ('\n' :: List.replicate n ' ') from by simp [ind],
    ← List.append_assoc, List.append_assoc "    ".toList]
  have := ((reads_spaces 4).trans (h (n + 4)).then_comma).trans (reads_newline n)
  simp only [List.nil_append, List.append_nil] at this
  exact this

theorem reads_field {f v : Str} {t : List Tok} (hf : '\n' ∉ f)
    (hr : Reads .out (f ++ ": ".toList) [.word f, .punct ':'] .out)
    (h : ∀ n, Value (ind n v) t) (n : Nat) :
    Reads .out (ind n (debugField f v)) ([.word f, .punct ':'] ++ t ++ [.punct ',']) .out := by
  rw [debugField_eq f v hf, ind_append, ind_append, ind_append, ind_append, ind_ind, ind_none n hf,
    show ind n "    ".toList = "    ".toList from ind_none n (by decide),
    show ind n ": ".toList = ": ".toList from ind_none n (by decide),
    show ind n ",\n".toList = [','] ++ ('\n' :: List.replicate n ' ') from by simp [ind]]
  have := (((reads_spaces 4).trans hr).trans (h (n + 4)).then_comma).trans (reads_newline n)
  simp only [List.nil_append, List.append_nil, List.append_assoc] at this ⊢
  exact this

theorem reads_open (n : Nat) {a : Str} {t : List Tok} (ha : '\n' ∉ a) (h : Reads .out a t .out) :
    Reads .out (ind n (a ++ ['\n'])) t .out := by
  rw [ind_append, ind_none n ha, show ind n ['\n'] = '\n' :: List.replicate n ' ' from by simp [ind]]
  simpa using h.trans (reads_newline n)

theorem reads_struct {f₁ v₁ f₂ v₂ : Str} {t₁ t₂ : List Tok} (hf₁ : '\n' ∉ f₁) (hf₂ : '\n' ∉ f₂)
    (hr₁ : Reads .out (f₁ ++ ": ".toList) [.word f₁, .punct ':'] .out)
    (hr₂ : Reads .out (f₂ ++ ": ".toList) [.word f₂, .punct ':'] .out)
    (h₁ : ∀ n, Value (ind n v₁) t₁) (h₂ : ∀ n, Value (ind n v₂) t₂) (n : Nat) :
    Reads .out (ind n (debugStruct2 "Node".toList f₁ v₁ f₂ v₂))
      ([.word "Node".toList, .punct '{'] ++ ([.word f₁, .punct ':'] ++ t₁ ++ [.punct ',']) ++
        ([.word f₂, .punct ':'] ++ t₂ ++ [.punct ',']) ++ [.punct '}']) .out := by
  rw [debugStruct2, ind_append, ind_append, ind_append, show ind n "}".toList = "}".toList from ind_none n (by decide)]
  have h0 : Reads .out (ind n ("Node".toList ++ " {\n".toList)) [.word "Node".toList, .punct '{'] .out :=
    reads_open n (a := "Node {".toList) (by decide) (reads_run rfl)
  exact ((h0.trans (reads_field hf₁ hr₁ h₁ n)).trans (reads_field hf₂ hr₂ h₂ n)).trans (reads_step rfl)

theorem reads_pair {v₁ v₂ : Str} {t₁ t₂ : List Tok}
    (h₁ : ∀ n, Value (ind n v₁) t₁) (h₂ : ∀ n, Value (ind n v₂) t₂) (n : Nat) :
    Reads .out (ind n (debugPair v₁ v₂))
      ([.punct '('] ++ (t₁ ++ [.punct ',']) ++ (t₂ ++ [.punct ',']) ++ [.punct ')']) .out := by
  rw [debugPair, ind_append, ind_append, ind_append, show ind n ")".toList = ")".toList from ind_none n (by decide)]
  have h0 : Reads .out (ind n "(\n".toList) [.punct '('] .out :=
    reads_open n (a := "(".toList) (by decide) (reads_run rfl)
  exact ((h0.trans (reads_entry h₁ n)).trans (reads_entry h₂ n)).trans (reads_step rfl)

theorem reads_some {v : Str} {t : List Tok} (h : ∀ n, Value (ind n v) t) (n : Nat) :
    Reads .out (ind n (debugSome v)) (optTokens (some t)) .out := by
  rw [debugSome, ind_append, ind_append, show ind n ")".toList = ")".toList from ind_none n (by decide)]
  have h0 : Reads .out (ind n "Some(\n".toList) [.word "Some".toList, .punct '('] .out :=
    reads_open n (a := "Some(".toList) (by decide) (reads_run rfl)
  have := (h0.trans (reads_entry h n)).trans (reads_step (c := ')') (t := [.punct ')']) rfl)
  simpa [optTokens] using this

theorem value_none (n : Nat) : Value (ind n "None".toList) (optTokens none) :=
  .inr ⟨"None".toList, [], rfl, reads_run rfl⟩

theorem reads_list {b : Bool} {e : Str} {t : List Tok} (n : Nat) (h : Reads .out (ind n e) t .out) :
    Reads .out (ind n (debugList b e)) (.punct '[' :: t ++ [.punct ']']) .out := by
  rw [debugList, ind_append, ind_append, show ind n "]".toList = "]".toList from ind_none n (by decide)]
  have h0 : Reads .out (ind n ("[".toList ++ if b then [] else "\n".toList)) [.punct '['] .out := by
    cases b
    · exact reads_open n (a := "[".toList) (by decide) (reads_run rfl)
    · rw [ind_none n (by decide)]
      exact reads_run rfl
  exact (h0.trans h).trans (reads_step rfl)

theorem value_optStr (u : Char → Bool) (o : Option Str) (n : Nat) :
    Value (ind n (debugOptStr u o)) (optTokens (o.map fun s => [.string s])) := by
  cases o with
  | none => exact value_none n
  | some s => exact .inl (reads_some (value_debugStr u s) n)

/-! ## Trees -/

theorem reads_pairTokens {u : Char → Bool} {c : Char} {v : Str} {t : List Tok}
    (h : ∀ n, Value (ind n v) t) (n : Nat) :
    Reads .out (ind n (debugEntry (debugPair (debugChar u c) v))) (pairTokens c t) .out := by
  have := reads_entry (fun n => .inl (reads_pair (value_debugChar u c) h n)) n
  simpa [pairTokens] using this

mutual
theorem value_kNode (u : Char → Bool) : ∀ (m : KNode) (n : Nat),
    Value (ind n (debugKNode u m)) (kNodeTokens m)
  | .mk t o, n => by
    rw [debugKNode, kNodeTokens]
    have := reads_struct (f₁ := "transitions".toList) (f₂ := "output".toList) (by decide) (by decide)
      (reads_run rfl) (reads_run rfl)
      (fun n => .inl (reads_list (b := t.isEmpty) n (reads_kEntries u t n))) (value_optStr u o) n
    refine .inl ?_
    simpa [nodeTokens] using this
theorem reads_kEntries (u : Char → Bool) : ∀ (t : List (Char × KNode)) (n : Nat),
    Reads .out (ind n (debugKEntries u t)) (kEntryTokens t) .out
  | [], n => by rw [debugKEntries, kEntryTokens]; exact reads_nil _
  | (c, m) :: rest, n => by
    rw [debugKEntries, kEntryTokens, ind_append]
    exact (reads_pairTokens (value_kNode u m) n).trans (reads_kEntries u rest n)
end

mutual
theorem value_rNode (u : Char → Bool) : ∀ (m : RNode) (n : Nat),
    Value (ind n (debugRNode u m)) (rNodeTokens m)
  | .mk t o, n => by
    rw [debugRNode, rNodeTokens]
    have := reads_struct (f₁ := "transitions".toList) (f₂ := "output".toList) (by decide) (by decide)
      (reads_run rfl) (reads_run rfl)
      (value_rOpt u t) (value_debugStr u o) n
    refine .inl ?_
    simpa [nodeTokens] using this
theorem value_rOpt (u : Char → Bool) : ∀ (t : Option (List (Char × RNode))) (n : Nat),
    Value (ind n (debugROpt u t)) (romajiTokens t)
  | none, n => by rw [debugROpt, romajiTokens]; exact value_none n
  | some t, n => by
    rw [debugROpt, romajiTokens]
    exact .inl (reads_some (fun n => .inl (reads_list (b := t.isEmpty) n (reads_rEntries u t n))) n)
theorem reads_rEntries (u : Char → Bool) : ∀ (t : List (Char × RNode)) (n : Nat),
    Reads .out (ind n (debugREntries u t)) (rEntryTokens t) .out
  | [], n => by rw [debugREntries, rEntryTokens]; exact reads_nil _
  | (c, m) :: rest, n => by
    rw [debugREntries, rEntryTokens, ind_append]
    exact (reads_pairTokens (value_rNode u m) n).trans (reads_rEntries u rest n)
end

/-! ## Tokens determine the tree -/

theorem optTokens_inj {o o' : Option Str} {x x' : List Tok}
    (h : optTokens (o.map fun s => [.string s]) ++ x = optTokens (o'.map fun s => [.string s]) ++ x') :
    o = o' ∧ x = x' := by
  cases o <;> cases o' <;> simp_all [optTokens]

theorem pair_split {c c' : Char} {l l' x x' : List Tok}
    (h : pairTokens c l ++ x = pairTokens c' l' ++ x') :
    c = c' ∧ l ++ ([.punct ',', .punct ')', .punct ','] ++ x) =
      l' ++ ([.punct ',', .punct ')', .punct ','] ++ x') := by
  simpa [pairTokens] using h

theorem node_split {l l' m m' x x' : List Tok}
    (h : nodeTokens l m ++ x = nodeTokens l' m' ++ x') :
    l ++ ([.punct ',', .word "output".toList, .punct ':'] ++ (m ++ ([.punct ',', .punct '}'] ++ x))) =
      l' ++ ([.punct ',', .word "output".toList, .punct ':'] ++ (m' ++ ([.punct ',', .punct '}'] ++ x'))) := by
  simpa [nodeTokens] using h

mutual
theorem kNode_inj : ∀ (m m' : KNode) (x x' : List Tok),
    kNodeTokens m ++ x = kNodeTokens m' ++ x' → m = m' ∧ x = x'
  | .mk t o, .mk t' o', x, x', h => by
    rw [kNodeTokens, kNodeTokens] at h
    have h1 := node_split h
    simp only [List.cons_append, List.append_assoc, List.cons.injEq, true_and] at h1
    obtain ⟨rfl, h2⟩ := kEntries_inj t t' _ _ h1
    simp only [List.nil_append, List.cons.injEq, true_and] at h2
    obtain ⟨rfl, h3⟩ := optTokens_inj h2
    simp only [List.cons.injEq, true_and] at h3
    exact ⟨rfl, h3⟩
theorem kEntries_inj : ∀ (t t' : List (Char × KNode)) (x x' : List Tok),
    kEntryTokens t ++ ([.punct ']'] ++ x) = kEntryTokens t' ++ ([.punct ']'] ++ x') → t = t' ∧ x = x'
  | [], [], x, x', h => by
    simp only [kEntryTokens, List.nil_append, List.cons_append, List.cons.injEq, true_and] at h
    exact ⟨rfl, h⟩
  | [], (c, m) :: r, x, x', h => by
    rw [kEntryTokens, kEntryTokens] at h
    simp [pairTokens] at h
  | (c, m) :: r, [], x, x', h => by
    rw [kEntryTokens, kEntryTokens] at h
    simp [pairTokens] at h
  | (c, m) :: r, (c', m') :: r', x, x', h => by
    rw [kEntryTokens, kEntryTokens, List.append_assoc, List.append_assoc] at h
    obtain ⟨rfl, h1⟩ := pair_split h
    obtain ⟨rfl, h2⟩ := kNode_inj m m' _ _ h1
    simp only [List.nil_append, List.cons_append, List.cons.injEq, true_and] at h2
    obtain ⟨rfl, h3⟩ := kEntries_inj r r' x x' h2
    exact ⟨rfl, h3⟩
end

mutual
theorem rNode_inj : ∀ (m m' : RNode) (x x' : List Tok),
    rNodeTokens m ++ x = rNodeTokens m' ++ x' → m = m' ∧ x = x'
  | .mk t o, .mk t' o', x, x', h => by
    rw [rNodeTokens, rNodeTokens] at h
    have h1 := node_split h
    obtain ⟨rfl, h2⟩ := rOpt_inj t t' _ _ h1
    simp only [List.nil_append, List.cons_append, List.cons.injEq, true_and, Tok.string.injEq] at h2
    exact ⟨by rw [h2.1], h2.2⟩
theorem rOpt_inj : ∀ (t t' : Option (List (Char × RNode))) (x x' : List Tok),
    romajiTokens t ++ x = romajiTokens t' ++ x' → t = t' ∧ x = x'
  | none, none, x, x', h => by
    rw [romajiTokens] at h
    exact ⟨rfl, List.append_cancel_left h⟩
  | none, some t, x, x', h => by
    rw [romajiTokens, romajiTokens] at h
    simp [optTokens] at h
  | some t, none, x, x', h => by
    rw [romajiTokens, romajiTokens] at h
    simp [optTokens] at h
  | some t, some t', x, x', h => by
    rw [romajiTokens, romajiTokens] at h
    simp only [optTokens, List.cons_append, List.append_assoc, List.nil_append, List.cons.injEq,
      true_and] at h
    obtain ⟨rfl, h2⟩ := rEntries_inj t t' _ _ h
    simp only [List.cons.injEq, true_and] at h2
    exact ⟨rfl, h2⟩
theorem rEntries_inj : ∀ (t t' : List (Char × RNode)) (x x' : List Tok),
    rEntryTokens t ++ ([.punct ']'] ++ x) = rEntryTokens t' ++ ([.punct ']'] ++ x') → t = t' ∧ x = x'
  | [], [], x, x', h => by
    simp only [rEntryTokens, List.nil_append, List.cons_append, List.cons.injEq, true_and] at h
    exact ⟨rfl, h⟩
  | [], (c, m) :: r, x, x', h => by
    rw [rEntryTokens, rEntryTokens] at h
    simp [pairTokens] at h
  | (c, m) :: r, [], x, x', h => by
    rw [rEntryTokens, rEntryTokens] at h
    simp [pairTokens] at h
  | (c, m) :: r, (c', m') :: r', x, x', h => by
    rw [rEntryTokens, rEntryTokens, List.append_assoc, List.append_assoc] at h
    obtain ⟨rfl, h1⟩ := pair_split h
    obtain ⟨rfl, h2⟩ := rNode_inj m m' _ _ h1
    simp only [List.nil_append, List.cons_append, List.cons.injEq, true_and] at h2
    obtain ⟨rfl, h3⟩ := rEntries_inj r r' x x' h2
    exact ⟨rfl, h3⟩
end

/-! ## The claims -/

theorem ok_of_bind {α β : Type} {x : Res α} {f : α → Res β} {b : β} (h : (x >>= f) = .ok b) :
    ∃ a, x = .ok a ∧ f a = .ok b := by
  cases x with
  | error e => cases h
  | ok a => exact ⟨a, rfl, h⟩

/-- C119: a string literal printed with `{:?}` is a Rust literal for the same text, whichever
characters the standard library considers unprintable. -/
theorem C119_string (u : Char → Bool) (s : Str) : readTokens (debugStr u s) = some [.string s] := by
  have := reads_debugStr u s []
  rw [List.append_nil] at this
  rw [readTokens, this]
  rfl

/-- C119: and so for character literals. -/
theorem C119_char (u : Char → Bool) (c : Char) : readTokens (debugChar u c) = some [.char [c]] := by
  have := reads_debugChar u c []
  rw [List.append_nil] at this
  rw [readTokens, this]
  rfl

example : debugStr (fun c => decide (c = '\u3000')) "a\"'\u3000\n".toList =
    "\"a\\\"'\\u{3000}\\n\"".toList := by decide +kernel

/-- C119: the kana generator prints exactly when it can build a tree, and what it prints reads
as the tokens of that tree. -/
theorem C119_kana (u : Char → Bool) (val : Json) :
    (∀ t, kanaGet val = .ok t → ∃ out, kanaMain u val = .ok out ∧ readTokens out = some (kanaTokens t)) ∧
    (∀ e, kanaGet val = .error e → kanaMain u val = .error e) := by
  constructor
  · intro t h
    refine ⟨debugList t.isEmpty (debugKEntries u t) ++ "\n".toList, by simp only [kanaMain, h]; rfl, ?_⟩
    have h0 : Value (debugList t.isEmpty (debugKEntries u t)) (kanaTokens t) := by
      have := reads_list (b := t.isEmpty) 0 (reads_kEntries u t 0)
      rw [ind_zero] at this
      exact .inl this
    exact h0.then_newline
  · intro e h
    simp only [kanaMain, h]
    rfl

/-- C119: two tables for which the kana generator prints the same text gave the same tree; this
holds even if the two runs used standard libraries with different ideas of what is printable. -/
theorem C119_kana_injective (u u' : Char → Bool) (val val' : Json) (out : Str)
    (h : kanaMain u val = .ok out) (h' : kanaMain u' val' = .ok out) :
    kanaGet val = kanaGet val' := by
  obtain ⟨t, ht, _⟩ := ok_of_bind h
  obtain ⟨t', ht', _⟩ := ok_of_bind h'
  obtain ⟨o, ho, hr⟩ := (C119_kana u val).1 t ht
  obtain ⟨o', ho', hr'⟩ := (C119_kana u' val').1 t' ht'
  have e : kanaTokens t = kanaTokens t' := by
    have e1 : o = out := Except.ok.inj (ho.symm.trans h)
    have e2 : o' = out := Except.ok.inj (ho'.symm.trans h')
    subst e1
    subst e2
    exact Option.some.inj (hr.symm.trans hr')
  have := kEntries_inj t t' [] [] (by simpa [kanaTokens] using e)
  rw [ht, ht', this.1]

/-- C119: the romaji generator prints exactly when it can build a tree, and what it prints reads
as the tokens of that tree. -/
theorem C119_romaji (u : Char → Bool) (val : Json) :
    (∀ t, romajiGet val = .ok t → ∃ out, romajiMain u val = .ok out ∧ readTokens out = some (romajiTokens t)) ∧
    (∀ e, romajiGet val = .error e → romajiMain u val = .error e) := by
  constructor
  · intro t h
    refine ⟨debugROpt u t ++ "\n".toList, by simp only [romajiMain, h]; rfl, ?_⟩
    have h0 := value_rOpt u t 0
    rw [ind_zero] at h0
    exact h0.then_newline
  · intro e h
    simp only [romajiMain, h]
    rfl

/-- C119: two tables for which the romaji generator prints the same text gave the same tree. -/
theorem C119_romaji_injective (u u' : Char → Bool) (val val' : Json) (out : Str)
    (h : romajiMain u val = .ok out) (h' : romajiMain u' val' = .ok out) :
    romajiGet val = romajiGet val' := by
  obtain ⟨t, ht, _⟩ := ok_of_bind h
  obtain ⟨t', ht', _⟩ := ok_of_bind h'
  obtain ⟨o, ho, hr⟩ := (C119_romaji u val).1 t ht
  obtain ⟨o', ho', hr'⟩ := (C119_romaji u' val').1 t' ht'
  have e : romajiTokens t = romajiTokens t' := by
    have e1 : o = out := Except.ok.inj (ho.symm.trans h)
    have e2 : o' = out := Except.ok.inj (ho'.symm.trans h')
    subst e1
    subst e2
    exact Option.some.inj (hr.symm.trans hr')
  have := rOpt_inj t t' [] [] (by rw [e])
  rw [ht, ht', this.1]

/-- a table with one entry whose result is quoted, and what is printed for it -/
example : kanaMain (fun _ => false) (.obj [("x".toList, .obj [("".toList, .str "\"".toList)])]) =
    .ok "[
    (
        'x',
        Node {
            transitions: [],
            output: Some(
                \"\\\"\",
            ),
        },
    ),
]
".toList := by decide +kernel

example : romajiMain (fun c => decide (c = '\u3000'))
    (.obj [("\u3000".toList, .obj [("".toList, .str " ".toList)])]) =
    .ok "Some(
    [
        (
            '\\u{3000}',
            Node {
                transitions: None,
                output: \" \",
            },
        ),
    ],
)
".toList := by decide +kernel

end WanaKana.C119
