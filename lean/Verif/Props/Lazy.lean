import Verif.Spec.Lazy
import Verif.Proofs.ToKana
/-! # C106: first use of the tables by several threads -/

namespace WanaKana.Lazy
open Spec

/-! ## Programs run alone -/

theorem alone_bind {α β : Type} (p : Prog α) (f : α → Prog β) :
    alone (p >>= f) = (alone p >>= fun a => alone (f a)) := by
  show alone (p.bind f) = _
  induction p with
  | ret a => rfl
  | fault e => rfl
  | deref s k ih => exact ih _

theorem alone_ret {α : Type} (a : α) : alone (Prog.ret a) = .ok a := rfl
theorem alone_pure {α : Type} (a : α) : alone (pure a : Prog α) = .ok a := rfl

theorem alone_lift {α : Type} (r : Res α) : alone (Prog.lift r) = r := by cases r <;> rfl

theorem alone_ite {α : Type} (c : Prop) [Decidable c] (p q : Prog α) :
    alone (if c then p else q) = if c then alone p else alone q := by split <;> rfl

theorem alone_kana : alone (Prog.kana .TO_KANA_NODE_TREE) = .ok WanaKana.TO_KANA_NODE_TREE := rfl
theorem alone_obsolete : alone (Prog.kana .TO_KANA_NODE_TREE_OBSOLETE) = WanaKana.TO_KANA_NODE_TREE_OBSOLETE := by
  unfold Prog.kana alone staticVal; rw [obs_ok]; rfl
theorem alone_ime : alone (Prog.kana .TO_KANA_NODE_TREE_IMEMODE) = WanaKana.TO_KANA_NODE_TREE_IMEMODE := by
  unfold Prog.kana alone staticVal; rw [ime_ok]; rfl
theorem alone_romaji : alone Prog.romaji = .ok WanaKana.TO_ROMAJI_NODE_TREE := rfl
theorem alone_vowels : alone Prog.vowels = .ok WanaKana.LONG_VOWELS := rfl

/-- the hash map has the entries of the function that models it -/
theorem hashmap_vowels : hashmap [('a', 'あ'), ('i', 'い'), ('u', 'う'), ('e', 'え'), ('o', 'う')] =
    WanaKana.LONG_VOWELS := by
  funext c
  simp only [hashmap, insert, List.foldl_cons, List.foldl_nil]
  by_cases h1 : c = 'o'
  · subst h1; rfl
  by_cases h2 : c = 'e'
  · subst h2; rfl
  by_cases h3 : c = 'u'
  · subst h3; rfl
  by_cases h4 : c = 'i'
  · subst h4; rfl
  by_cases h5 : c = 'a'
  · subst h5; rfl
  rw [if_neg h1, if_neg h2, if_neg h3, if_neg h4, if_neg h5]
  unfold WanaKana.LONG_VOWELS
  split <;> first | contradiction | rfl

/-- an initialiser, run alone, produces the value of the static -/
theorem alone_init (s : Static) : alone (staticInit s) = .ok (staticVal s) := by
  cases s
  case TO_KANA_NODE_TREE_OBSOLETE =>
    unfold staticInit
    rw [alone_bind, alone_kana]
    have h : WanaKana.TO_KANA_NODE_TREE_OBSOLETE = .ok (tree .obsolete) := obs_ok
    have e : staticVal .TO_KANA_NODE_TREE_OBSOLETE = .kana (tree .obsolete) := by unfold staticVal; rw [h]
    rw [e]
    unfold WanaKana.TO_KANA_NODE_TREE_OBSOLETE at h
    show (alone (Prog.lift _ >>= _) : Res Val) = _
    rw [alone_bind, alone_lift]
    cases h1 : KNode.modifyTransition 'w' obsoleteEdit WanaKana.TO_KANA_NODE_TREE.transitions with
    | error e => rw [h1] at h; cases h
    | ok t =>
      rw [h1] at h
      have h2 : (KNode.mk t WanaKana.TO_KANA_NODE_TREE.output).sort = tree .obsolete := Except.ok.inj h
      show Except.ok (Val.kana (KNode.mk t WanaKana.TO_KANA_NODE_TREE.output).sort) = _
      rw [h2]
  case TO_KANA_NODE_TREE_IMEMODE =>
    unfold staticInit
    rw [alone_bind, alone_kana]
    have h : WanaKana.TO_KANA_NODE_TREE_IMEMODE = .ok (tree .ime) := ime_ok
    have e : staticVal .TO_KANA_NODE_TREE_IMEMODE = .kana (tree .ime) := by unfold staticVal; rw [h]
    rw [e]
    unfold WanaKana.TO_KANA_NODE_TREE_IMEMODE at h
    show (alone (Prog.lift _ >>= _) : Res Val) = _
    rw [alone_bind, alone_lift]
    cases h1 : KNode.modifyTransition 'n' imeEdit WanaKana.TO_KANA_NODE_TREE.transitions with
    | error e => rw [h1] at h; cases h
    | ok t =>
      rw [h1] at h
      have h2 : (KNode.mk t WanaKana.TO_KANA_NODE_TREE.output).sort = tree .ime := Except.ok.inj h
      show Except.ok (Val.kana (KNode.mk t WanaKana.TO_KANA_NODE_TREE.output).sort) = _
      rw [h2]
  case LONG_VOWELS => unfold staticInit; rw [hashmap_vowels]; rfl
  all_goals rfl

/-! ## Which statics an initialiser uses -/

/-- position in the order of initialisation -/
def rank : Static → Nat
  | .TO_KANA_NODE_TREE_OBSOLETE => 1
  | .TO_KANA_NODE_TREE_IMEMODE => 1
  | _ => 0

/-- run alone, the program uses only statics before position `n` -/
def Low {α : Type} (n : Nat) : Prog α → Prop
  | .deref s k => rank s < n ∧ Low n (k (staticVal s))
  | _ => True

theorem low_lift {α : Type} (n : Nat) (r : Res α) : Low n (Prog.lift r) := by cases r <;> trivial

theorem low_bind {α β : Type} (n : Nat) (p : Prog α) (f : α → Prog β) (hp : Low n p) (hf : ∀ a, Low n (f a)) :
    Low n (p >>= f) := by
  show Low n (p.bind f)
  induction p with
  | ret a => exact hf a
  | fault e => trivial
  | deref s k ih => exact ⟨hp.1, ih _ hp.2⟩

theorem low_init (s : Static) : Low (rank s) (staticInit s) := by
  cases s
  case TO_KANA_NODE_TREE_OBSOLETE =>
    exact low_bind _ _ _ ⟨Nat.zero_lt_one, trivial⟩ fun t => low_bind _ _ _ (low_lift _ _) fun _ => trivial
  case TO_KANA_NODE_TREE_IMEMODE =>
    exact low_bind _ _ _ ⟨Nat.zero_lt_one, trivial⟩ fun t => low_bind _ _ _ (low_lift _ _) fun _ => trivial
  all_goals trivial

theorem uses_lift {α : Type} (r : Res α) : uses (Prog.lift r) = 0 := by cases r <;> rfl

theorem uses_bind_le {α β : Type} (p : Prog α) (f : α → Prog β) (hf : ∀ a, uses (f a) = 0) :
    uses (p >>= f) = uses p := by
  show uses (p.bind f) = _
  induction p with
  | ret a => exact hf a
  | fault e => rfl
  | deref s k ih => show uses ((k _).bind f) + 1 = _; rw [ih]; rfl

theorem uses_init (s : Static) : uses (staticInit s) = rank s := by
  cases s
  case TO_KANA_NODE_TREE_OBSOLETE =>
    unfold staticInit
    rw [uses_bind_le _ _ fun t => by rw [uses_bind_le _ _ fun _ => rfl, uses_lift]]; rfl
  case TO_KANA_NODE_TREE_IMEMODE =>
    unfold staticInit
    rw [uses_bind_le _ _ fun t => by rw [uses_bind_le _ _ fun _ => rfl, uses_lift]]; rfl
  all_goals rfl

/-! ## Sums over the threads -/

/-- sum over the threads -/
def total (f : Thread → Nat) (l : List Thread) : Nat := (l.map f).sum

theorem total_set (f : Thread → Nat) : ∀ (l : List Thread) (i : Nat) (t t' : Thread), l[i]? = some t →
    total f (l.set i t') + f t = total f l + f t'
  | [], i, t, t', h => by simp at h
  | x :: l, 0, t, t', h => by
    simp only [List.getElem?_cons_zero, Option.some.injEq] at h
    subst h
    simp only [List.set_cons_zero, total, List.map_cons, List.sum_cons]; omega
  | x :: l, i + 1, t, t', h => by
    have := total_set f l i t t' (by simpa using h)
    simp only [List.set_cons_succ, total, List.map_cons, List.sum_cons] at this ⊢; omega

theorem total_pos (f : Thread → Nat) : ∀ (l : List Thread), 0 < total f l → ∃ t, t ∈ l ∧ 0 < f t
  | [], h => absurd h (by simp [total])
  | x :: l, h => by
    by_cases hx : 0 < f x
    · exact ⟨x, List.mem_cons_self, hx⟩
    · obtain ⟨t, ht, h'⟩ := total_pos f l (by simp only [total, List.map_cons, List.sum_cons] at h ⊢; omega)
      exact ⟨t, List.mem_cons_of_mem _ ht, h'⟩

/-- how often the thread is inside the initialisation of `s` -/
def holds (s : Static) (t : Thread) : Nat := (t.stack.map (·.static)).count s

/-! ## The invariant -/

/-- the thread, with what it runs and the initialisations it is inside of, will do what `p` does alone -/
def Good (cell : Static → Option Val) (p : Prog Val) : Prog Val → List Frame → Prop
  | cur, [] => alone cur = alone p
  | cur, f :: st => alone cur = .ok (staticVal f.static) ∧ Low (rank f.static) cur ∧
    (f.stored = true → (∃ v, cur = .ret v) ∧ cell f.static = some (staticVal f.static)) ∧
    Good cell p (.deref f.static f.k) st

/-- the invariant of every execution -/
structure LazyInv (ps : List (Prog Val)) (log : List (Option Static)) (σ : State) : Prop where
  poison : ∀ s, σ.shared.once s ≠ .poisoned
  cells : ∀ s, σ.shared.once s = .complete → σ.shared.cell s = some (staticVal s)
  length : σ.threads.length = ps.length
  good : ∀ (i : Nat) (t : Thread) (p : Prog Val), σ.threads[i]? = some t → ps[i]? = some p → Good σ.shared.cell p t.cur t.stack
  held : ∀ s, total (holds s) σ.threads = if σ.shared.once s = .running then 1 else 0
  started : ∀ s, log.count (some s) = if σ.shared.once s = .incomplete then 0 else 1

theorem good_mono {cell cell' : Static → Option Val} (p : Prog Val)
    (h : ∀ s, cell s = some (staticVal s) → cell' s = some (staticVal s)) :
    ∀ (st : List Frame) (cur : Prog Val), Good cell p cur st → Good cell' p cur st
  | [], _, g => g
  | _ :: st, _, g => ⟨g.1, g.2.1, fun hs => ⟨(g.2.2.1 hs).1, h _ (g.2.2.1 hs).2⟩, good_mono p h st _ g.2.2.2⟩

/-- the steps a thread can make when the invariant holds -/
inductive Move (m : Shared) : Thread → Option Static → Shared → Thread → Prop where
  | read (s k st) : m.once s = .complete → Move m ⟨.deref s k, st⟩ none m ⟨k (staticVal s), st⟩
  | init (s k st) : m.once s = .incomplete →
      Move m ⟨.deref s k, st⟩ (some s) (m.setOnce s .running) ⟨staticInit s, ⟨s, false, k⟩ :: st⟩
  | store (s k st) : Move m ⟨.ret (staticVal s), ⟨s, false, k⟩ :: st⟩ none (m.setCell s (staticVal s))
      ⟨.ret (staticVal s), ⟨s, true, k⟩ :: st⟩
  | complete (s k st v) : m.cell s = some (staticVal s) →
      Move m ⟨.ret v, ⟨s, true, k⟩ :: st⟩ none (m.setOnce s .complete) ⟨.deref s k, st⟩

theorem move_of_step {m m' : Shared} {t t' : Thread} {l : Option Static} {p : Prog Val}
    (hp : ∀ s, m.once s ≠ .poisoned) (hc : ∀ s, m.once s = .complete → m.cell s = some (staticVal s))
    (hg : Good m.cell p t.cur t.stack) (h : stepThread m t = some (l, m', t')) : Move m t l m' t' := by
  obtain ⟨cur, st⟩ := t
  unfold stepThread at h
  cases cur with
  | deref s k =>
    dsimp only at h
    cases ho : m.once s with
    | complete =>
      rw [ho] at h; dsimp only at h; rw [hc s ho] at h; dsimp only at h
      cases h; exact .read s k st ho
    | poisoned => exact absurd ho (hp s)
    | running => rw [ho] at h; cases h
    | incomplete => rw [ho] at h; cases h; exact .init s k st ho
  | ret v =>
    cases st with
    | nil => cases h
    | cons f st =>
      obtain ⟨s, b, k⟩ := f
      cases b with
      | true =>
        dsimp only at h
        rw [if_pos rfl] at h; cases h
        exact .complete s k st v (hg.2.2.1 rfl).2
      | false =>
        dsimp only at h
        rw [if_neg (by simp)] at h
        have : v = staticVal s := Except.ok.inj hg.1
        subst this
        cases h; exact .store s k st
  | fault e =>
    cases st with
    | nil => cases e <;> cases h
    | cons f st => exact absurd hg.1 (by intro h; cases h)

theorem inv_start (ps : List (Prog Val)) : LazyInv ps [] (start ps) where
  poison := fun s h => by cases h
  cells := fun s h => by cases h
  length := by simp [start]
  good := fun i t p ht hp => by
    simp only [start, List.getElem?_map, hp, Option.map_some, Option.some.injEq] at ht
    subst ht; rfl
  held := fun s => by
    show total (holds s) (ps.map fun p => ⟨p, []⟩) = 0
    induction ps with
    | nil => rfl
    | cons p ps ih => simp only [total, List.map_cons, List.sum_cons] at ih ⊢; rw [ih]; rfl
  started := fun s => rfl

/-- the parts of the invariant that do not depend on which step was made -/
theorem inv_of_parts {ps : List (Prog Val)} {log log' : List (Option Static)} {σ : State} (inv : LazyInv ps log σ) {i : Nat}
    {t t' : Thread} {m' : Shared} (hi : σ.threads[i]? = some t)
    (poison : ∀ s, m'.once s ≠ .poisoned) (cells : ∀ s, m'.once s = .complete → m'.cell s = some (staticVal s))
    (mono : ∀ s, σ.shared.cell s = some (staticVal s) → m'.cell s = some (staticVal s))
    (good : ∀ p, Good m'.cell p t.cur t.stack → Good m'.cell p t'.cur t'.stack)
    (held : ∀ s, holds s t' + (if σ.shared.once s = .running then 1 else 0) =
      holds s t + (if m'.once s = .running then 1 else 0))
    (started : ∀ s, log'.count (some s) = if m'.once s = .incomplete then 0 else 1) :
    LazyInv ps log' ⟨m', σ.threads.set i t'⟩ where
  poison := poison
  cells := cells
  length := by rw [List.length_set]; exact inv.length
  good := fun j u p hu hp => by
    by_cases hj : i = j
    · subst hj
      rw [List.getElem?_set_self (by have := List.getElem?_eq_some_iff.1 hi; exact this.1)] at hu
      cases hu
      exact good p (good_mono p mono _ _ (inv.good i t p hi hp))
    · rw [List.getElem?_set_ne hj] at hu
      exact good_mono p mono _ _ (inv.good j u p hu hp)
  held := fun s => by
    have h1 := total_set (holds s) σ.threads i t t' hi
    have h2 := inv.held s
    have h3 := held s
    show total (holds s) (σ.threads.set i t') = _
    dsimp only
    omega
  started := started

theorem holds_cons (s : Static) (cur : Prog Val) (f : Frame) (st : List Frame) :
    holds s ⟨cur, f :: st⟩ = (if f.static = s then 1 else 0) + holds s ⟨cur, st⟩ := by
  simp only [holds, List.map_cons, List.count_cons, beq_iff_eq]; omega

theorem holds_cur (s : Static) (cur cur' : Prog Val) (st : List Frame) : holds s ⟨cur, st⟩ = holds s ⟨cur', st⟩ := rfl

/-- a thread that is inside the initialisation of `s` is noted in the state of `s` -/
theorem running_of_held {ps : List (Prog Val)} {log : List (Option Static)} {σ : State} (inv : LazyInv ps log σ) {i : Nat}
    {t : Thread} (hi : σ.threads[i]? = some t) {s : Static} (h : 0 < holds s t) : σ.shared.once s = .running := by
  have h1 := total_set (holds s) σ.threads i t ⟨.fault .panic, []⟩ hi
  have h2 := inv.held s
  have h3 : holds s (⟨.fault .panic, []⟩ : Thread) = 0 := rfl
  by_cases hr : σ.shared.once s = .running
  · exact hr
  · rw [if_neg hr] at h2; omega

theorem inv_move {ps : List (Prog Val)} {log : List (Option Static)} {σ : State} (inv : LazyInv ps log σ) {i : Nat}
    {t t' : Thread} {l : Option Static} {m' : Shared} (hi : σ.threads[i]? = some t) (h : Move σ.shared t l m' t') :
    LazyInv ps (log ++ [l]) ⟨m', σ.threads.set i t'⟩ := by
  cases h with
  | read s k st ho =>
    refine inv_of_parts inv hi inv.poison inv.cells (fun _ h => h) ?_ ?_ ?_
    · intro p g
      cases st with
      | nil => exact g
      | cons f st =>
        exact ⟨g.1, g.2.1.2, fun hs => (by obtain ⟨⟨v, hv⟩, _⟩ := g.2.2.1 hs; cases hv), g.2.2.2⟩
    · intro s'; rw [holds_cur s' (k _) (.deref s k)]
    · intro s'; rw [List.count_append, inv.started s']; simp
  | init s k st ho =>
    refine inv_of_parts inv hi ?_ ?_ (fun _ h => h) ?_ ?_ ?_
    · intro s' h
      simp only [Shared.setOnce] at h
      split at h
      · cases h
      · exact inv.poison s' h
    · intro s' h
      simp only [Shared.setOnce] at h
      split at h
      · cases h
      · exact inv.cells s' h
    · intro p g
      exact ⟨alone_init s, low_init s, fun h => (by cases h), g⟩
    · intro s'
      rw [holds_cons, holds_cur s' (staticInit s) (.deref s k)]
      by_cases hs : s' = s
      · subst hs
        simp only [Shared.setOnce, ho, if_true]
        simp; omega
      · simp only [Shared.setOnce, if_neg hs, if_neg (Ne.symm hs)]; omega
    · intro s'
      rw [List.count_append, inv.started s']
      by_cases hs : s' = s
      · subst hs; simp [Shared.setOnce, ho]
      · simp [Shared.setOnce, if_neg hs, Ne.symm hs]
  | store s k st =>
    refine inv_of_parts inv hi inv.poison ?_ ?_ ?_ ?_ ?_
    · intro s' h
      have := inv.cells s' h
      simp only [Shared.setCell]; split
      · rename_i hs; rw [hs]
      · exact this
    · intro s' h
      simp only [Shared.setCell]; split
      · rename_i hs; rw [hs]
      · exact h
    · intro p g
      refine ⟨g.1, g.2.1, fun _ => ⟨⟨_, rfl⟩, ?_⟩, g.2.2.2⟩
      simp [Shared.setCell]
    · intro s'; rfl
    · intro s'; rw [List.count_append, inv.started s']; simp [Shared.setCell]; rfl
  | complete s k st v hcell =>
    have hrun : σ.shared.once s = .running := running_of_held inv hi (by rw [holds_cons]; simp; omega)
    refine inv_of_parts inv hi ?_ ?_ (fun _ h => h) ?_ ?_ ?_
    · intro s' h
      simp only [Shared.setOnce] at h
      split at h
      · cases h
      · exact inv.poison s' h
    · intro s' h
      simp only [Shared.setOnce] at h ⊢
      split at h
      · rename_i hs; rw [hs]; exact hcell
      · exact inv.cells s' h
    · intro p g; exact g.2.2.2
    · intro s'
      rw [holds_cons, holds_cur s' (.ret v) (.deref s k)]
      by_cases hs : s' = s
      · subst hs
        simp only [Shared.setOnce, hrun, if_true]
        simp; omega
      · simp only [Shared.setOnce, if_neg hs, if_neg (Ne.symm hs)]; omega
    · intro s'
      rw [List.count_append, inv.started s']
      by_cases hs : s' = s
      · subst hs; simp [Shared.setOnce, hrun]
      · simp [Shared.setOnce, if_neg hs]

theorem step_move {ps : List (Prog Val)} {log : List (Option Static)} {σ σ' : State} (inv : LazyInv ps log σ)
    {l : Option Static} (h : Step σ l σ') :
    ∃ i t m' t', σ.threads[i]? = some t ∧ Move σ.shared t l m' t' ∧ σ' = ⟨m', σ.threads.set i t'⟩ := by
  obtain ⟨i, t, m', t', hi, hs, e⟩ := h
  have hlt : i < ps.length := by rw [← inv.length]; exact (List.getElem?_eq_some_iff.1 hi).1
  exact ⟨i, t, m', t', hi,
    move_of_step inv.poison inv.cells (inv.good i t _ hi (List.getElem?_eq_getElem hlt)) hs, e⟩

theorem inv_run {ps : List (Prog Val)} {log : List (Option Static)} {σ : State} (h : Run ps log σ) : LazyInv ps log σ := by
  induction h with
  | start => exact inv_start ps
  | step _ hs ih =>
    obtain ⟨i, t, m', t', hi, hm, e⟩ := step_move ih hs
    rw [e]; exact inv_move ih hi hm

/-! ## Termination -/

/-- steps a thread has still to make, apart from those of initialisers not started yet -/
def work (t : Thread) : Nat :=
  uses t.cur + (t.stack.map fun f => uses (f.k (staticVal f.static)) + 1 + (if f.stored then 1 else 2)).sum

/-- all statics (src/to_kana_node_tree.rs:52 etc.) -/
def allStatics : List Static :=
  [.TO_KANA_NODE_TREE, .TO_KANA_NODE_TREE_OBSOLETE, .TO_KANA_NODE_TREE_IMEMODE, .TO_ROMAJI_NODE_TREE, .LONG_VOWELS,
    .JAPANESE_RANGES, .ROMAJI_RANGES, .EN_PUNCTUATION_RANGES]

/-- steps for an initialiser not started yet -/
def pending (m : Shared) (s : Static) : Nat := if m.once s = .incomplete then rank s + 4 else 0

theorem pending_init (m : Shared) (s : Static) (h : m.once s = .incomplete) :
    (allStatics.map (pending (m.setOnce s .running))).sum + (rank s + 4) = (allStatics.map (pending m)).sum := by
  have h1 : pending m s = rank s + 4 := by simp [pending, h]
  have h2 : pending (m.setOnce s .running) s = 0 := by simp [pending, Shared.setOnce]
  have h3 : ∀ s', s' ≠ s → pending (m.setOnce s .running) s' = pending m s' := fun s' hs => by
    simp [pending, Shared.setOnce, hs]
  have h4 : ∀ l : List Static, (l.map (pending (m.setOnce s .running))).sum + l.count s * (rank s + 4) =
      (l.map (pending m)).sum := fun l => by
    induction l with
    | nil => simp
    | cons x l ih =>
      simp only [List.map_cons, List.sum_cons, List.count_cons, beq_iff_eq, Nat.add_mul]
      by_cases hx : x = s
      · subst hx; rw [if_pos rfl, h1, h2]; omega
      · rw [if_neg hx, h3 x hx]; omega
  have h5 : allStatics.count s = 1 := by cases s <;> rfl
  have := h4 allStatics
  rw [h5] at this
  omega

/-- steps the whole program has still to make -/
def workAll (σ : State) : Nat := total work σ.threads + (allStatics.map (pending σ.shared)).sum

theorem work_cons (cur : Prog Val) (f : Frame) (st : List Frame) : work ⟨cur, f :: st⟩ =
    work ⟨cur, st⟩ + (uses (f.k (staticVal f.static)) + 1 + (if f.stored then 1 else 2)) := by
  simp only [work, List.map_cons, List.sum_cons]; omega

theorem work_cur (cur cur' : Prog Val) (st : List Frame) : work ⟨cur, st⟩ + uses cur' = work ⟨cur', st⟩ + uses cur := by
  simp only [work]; omega

theorem work_move {m m' : Shared} {t t' : Thread} {l : Option Static} (h : Move m t l m' t') :
    work t' + (allStatics.map (pending m')).sum < work t + (allStatics.map (pending m)).sum := by
  cases h with
  | read s k st ho =>
    have h1 := work_cur (.deref s k) (k (staticVal s)) st
    have h2 : uses (.deref s k) = uses (k (staticVal s)) + 1 := rfl
    omega
  | init s k st ho =>
    have h1 := pending_init m s ho
    have h2 := work_cur (.deref s k) (staticInit s) st
    have h3 : uses (.deref s k) = uses (k (staticVal s)) + 1 := rfl
    have h4 := uses_init s
    rw [work_cons]
    simp only [Bool.false_eq_true, if_false]
    omega
  | store s k st =>
    rw [work_cons, work_cons]
    simp only [Bool.false_eq_true, if_false, if_true]
    show work ⟨.ret (staticVal s), st⟩ + _ + (allStatics.map (pending m)).sum < _
    omega
  | complete s k st v hcell =>
    rw [work_cons]
    have h2 := work_cur (.deref s k) (.ret v) st
    have h3 : uses (.deref s k) = uses (k (staticVal s)) + 1 := rfl
    have h4 : uses (.ret v : Prog Val) = 0 := rfl
    have h5 : ∀ s' ∈ allStatics, pending (m.setOnce s .complete) s' ≤ pending m s' := fun s' _ => by
      simp only [pending, Shared.setOnce]
      split
      · split <;> simp_all
      · omega
    have h6 : (allStatics.map (pending (m.setOnce s .complete))).sum ≤ (allStatics.map (pending m)).sum := by
      generalize allStatics = l at h5
      induction l with
      | nil => exact Nat.le_refl _
      | cons x l ih =>
        simp only [List.map_cons, List.sum_cons]
        have := h5 x List.mem_cons_self
        have := ih fun y hy => h5 y (List.mem_cons_of_mem _ hy)
        omega
    simp only [if_true]
    omega

theorem work_start (ps : List (Prog Val)) : workAll (start ps) = (ps.map uses).sum + 34 := by
  have h : total work (ps.map fun p => ⟨p, []⟩) = (ps.map uses).sum := by
    induction ps with
    | nil => rfl
    | cons p ps ih => simp only [total, List.map_cons, List.sum_cons] at ih ⊢; rw [ih]; rfl
  show total work (ps.map fun p => ⟨p, []⟩) + _ = _
  rw [h]; rfl

theorem work_run {ps : List (Prog Val)} {log : List (Option Static)} {σ : State} (h : Run ps log σ) :
    log.length + workAll σ ≤ (ps.map uses).sum + 34 := by
  induction h with
  | start => rw [work_start]; exact Nat.le_of_eq (Nat.zero_add _)
  | step hr hs ih =>
    obtain ⟨i, t, m', t', hi, hm, e⟩ := step_move (inv_run hr) hs
    have h1 := work_move hm
    have h2 := total_set work _ i t t' hi
    subst e
    simp only [workAll, List.length_append, List.length_singleton] at ih ⊢
    omega

/-! ## No deadlock -/

/-- the initialisations a thread is inside of, inner ones before outer ones -/
theorem top_rank {cell : Static → Option Val} {p : Prog Val} : ∀ (st : List Frame) (f : Frame) (cur : Prog Val) (s : Static),
    Good cell p cur (f :: st) → s ∈ (f :: st).map (·.static) → rank f.static ≤ rank s
  | st, f, cur, s, g, h => by
    cases st with
    | nil => simp at h; rw [h]; exact Nat.le_refl _
    | cons f' st =>
      simp only [List.map_cons, List.mem_cons] at h
      rcases h with h | h
      · rw [h]; exact Nat.le_refl _
      · have g' : Good cell p (.deref f.static f.k) (f' :: st) := g.2.2.2
        have h1 : rank f.static < rank f'.static := g'.2.1.1
        have h2 := top_rank st f' _ s g' (by simp only [List.map_cons, List.mem_cons]; exact h)
        omega

/-- a thread that cannot make a step waits for a static, or is finished -/
theorem blocked {m : Shared} {t : Thread} {p : Prog Val} (hg : Good m.cell p t.cur t.stack)
    (h : stepThread m t = none) :
    (∃ s k, t.cur = .deref s k ∧ m.once s = .running) ∨ ∃ r, Finished t r := by
  obtain ⟨cur, st⟩ := t
  unfold stepThread at h
  cases cur with
  | deref s k =>
    dsimp only at h
    refine .inl ⟨s, k, rfl, ?_⟩
    cases ho : m.once s with
    | complete => rw [ho] at h; dsimp only at h; cases hc : m.cell s <;> rw [hc] at h <;> cases h
    | poisoned => rw [ho] at h; cases h
    | running => rfl
    | incomplete => rw [ho] at h; cases h
  | ret v =>
    cases st with
    | nil => exact .inr ⟨.ok v, rfl, .inl ⟨v, rfl, rfl⟩⟩
    | cons f st => dsimp only at h; split at h <;> cases h
  | fault e =>
    cases st with
    | nil => exact .inr ⟨.error e, rfl, .inr ⟨e, rfl, rfl⟩⟩
    | cons f st => exact absurd hg.1 (by intro h; cases h)

theorem good_of_mem {ps : List (Prog Val)} {log : List (Option Static)} {σ : State} (inv : LazyInv ps log σ) {t : Thread}
    (h : t ∈ σ.threads) : ∃ (i : Nat) (p : Prog Val), σ.threads[i]? = some t ∧ Good σ.shared.cell p t.cur t.stack := by
  obtain ⟨i, hlt, e⟩ := List.getElem_of_mem h
  have hi : σ.threads[i]? = some t := by rw [List.getElem?_eq_getElem hlt, e]
  have hlt' : i < ps.length := by rw [← inv.length]; exact hlt
  exact ⟨i, ps[i], hi, inv.good i t _ hi (List.getElem?_eq_getElem hlt')⟩

/-- if no thread can make a step, nobody is initialising a static -/
theorem not_running {ps : List (Prog Val)} {log : List (Option Static)} {σ : State} (inv : LazyInv ps log σ)
    (stuck : ∀ t, t ∈ σ.threads → stepThread σ.shared t = none) :
    ∀ (n : Nat) (s : Static), rank s < n → σ.shared.once s ≠ .running
  | 0, _, h, _ => absurd h (Nat.not_lt_zero _)
  | n + 1, s, h, hr => by
    have hh := inv.held s
    rw [if_pos hr] at hh
    obtain ⟨t, ht, hpos⟩ := total_pos (holds s) σ.threads (by omega)
    obtain ⟨i, p, hi, g⟩ := good_of_mem inv ht
    have hmem : s ∈ t.stack.map (·.static) := List.count_pos_iff.1 hpos
    rcases blocked g (stuck t ht) with ⟨s', k, hc, hr'⟩ | ⟨r, hf⟩
    · cases hst : t.stack with
      | nil => rw [hst] at hmem; cases hmem
      | cons f st =>
        rw [hst, hc] at g
        rw [hst] at hmem
        have h1 : rank s' < rank f.static := g.2.1.1
        have h2 := top_rank st f _ s g hmem
        exact not_running inv stuck n s' (by omega) hr'
    · rw [hf.1] at hmem; cases hmem

/-! ## The theorems about all programs that use the tables -/

/-- A thread that comes to its end has the result it has alone. -/
theorem C106_results {ps : List (Prog Val)} {log : List (Option Static)} {σ : State} (h : Run ps log σ) {i : Nat}
    {t : Thread} (hi : σ.threads[i]? = some t) {r : Res Val} (hf : Finished t r) :
    ∃ p, ps[i]? = some p ∧ r = alone p := by
  have inv := inv_run h
  have hlt : i < ps.length := by rw [← inv.length]; exact (List.getElem?_eq_some_iff.1 hi).1
  refine ⟨ps[i], List.getElem?_eq_getElem hlt, ?_⟩
  have g := inv.good i t _ hi (List.getElem?_eq_getElem hlt)
  rw [hf.1] at g
  have g' : alone t.cur = alone ps[i] := g
  rcases hf.2 with ⟨v, hc, hr⟩ | ⟨e, hc, hr⟩ <;> rw [← g', hc, hr] <;> rfl

/-- As long as some thread is not at its end, some thread can make a step. -/
theorem C106_no_deadlock {ps : List (Prog Val)} {log : List (Option Static)} {σ : State} (h : Run ps log σ) :
    (∀ t, t ∈ σ.threads → ∃ r, Finished t r) ∨ ∃ l σ', Step σ l σ' := by
  have inv := inv_run h
  by_cases hs : ∃ l σ', Step σ l σ'
  · exact .inr hs
  · left
    have stuck : ∀ t, t ∈ σ.threads → stepThread σ.shared t = none := fun t ht => by
      obtain ⟨i, _, hi, _⟩ := good_of_mem inv ht
      cases hst : stepThread σ.shared t with
      | none => rfl
      | some x => exact absurd ⟨x.1, _, i, t, x.2.1, x.2.2, hi, hst, rfl⟩ hs
    intro t ht
    obtain ⟨i, p, hi, g⟩ := good_of_mem inv ht
    rcases blocked g (stuck t ht) with ⟨s, k, _, hr⟩ | hf
    · exact absurd hr (not_running inv stuck (rank s + 1) s (Nat.lt_succ_self _))
    · exact hf

/-- The threads together make at most 34 steps more than they use tables: no thread waits for ever. -/
theorem C106_terminates {ps : List (Prog Val)} {log : List (Option Static)} {σ : State} (h : Run ps log σ) :
    log.length ≤ (ps.map uses).sum + 34 := by
  have := work_run h; omega

/-- No initialiser is started twice, whatever the threads do. -/
theorem C106_once {ps : List (Prog Val)} {log : List (Option Static)} {σ : State} (h : Run ps log σ) (s : Static) :
    log.count (some s) ≤ 1 := by
  rw [(inv_run h).started s]; split <;> omega

/-- No static is ever poisoned, and once it is complete its cell has the value of the table. -/
theorem C106_cells {ps : List (Prog Val)} {log : List (Option Static)} {σ : State} (h : Run ps log σ) (s : Static) :
    σ.shared.once s ≠ .poisoned ∧ (σ.shared.once s = .complete → σ.shared.cell s = some (staticVal s)) :=
  ⟨(inv_run h).poison s, (inv_run h).cells s⟩

end WanaKana.Lazy
