import Verif.Model.Stdio
/-! # Invariants of the buffered output -/

namespace WanaKana

/-- an answer that makes a call fail -/
def Bad (a : WriteAnswer) : Prop := a = .failed ∨ a = .wrote 0

/-- an answer that takes bytes -/
def takes : WriteAnswer → Bool
  | .wrote _ => true
  | _ => false

structure Loop (as : List WriteAnswer) (bs : List UInt8)
    (r : IoEnd × List WriteAnswer × List UInt8 × List UInt8) : Prop where
  split : r.2.2.1 ++ r.2.2.2 = bs
  whole : r.1 = .done → r.2.2.2 = []
  part : r.1 ≠ .done → r.2.2.2 ≠ []
  answers : r.2.1 <:+ as
  bad : r.1 = .error → ∃ a ∈ as, Bad a
  wait : r.1 = .waiting → r.2.1 = []
  live : (∀ a ∈ as, ¬ Bad a) → as.countP takes ≤ r.2.1.countP takes + r.2.2.1.length

theorem writeLoop_loop (as : List WriteAnswer) (bs : List UInt8) : Loop as bs (writeLoop as bs) := by
  fun_induction writeLoop as bs with
  | case1 as => constructor <;> simp
  | case2 b bs => constructor <;> simp
  | case3 as b bs ih =>
    refine ⟨ih.split, ih.whole, ih.part, ih.answers.trans (List.suffix_cons _ _), ?_, ih.wait, ?_⟩
    · intro h
      obtain ⟨a, ha, hb⟩ := ih.bad h
      exact ⟨a, by simp [ha], hb⟩
    · intro h
      rw [List.countP_cons_of_neg (by simp [takes])]
      exact ih.live fun a ha => h a (by simp [ha])
  | case4 as b bs =>
    refine ⟨by simp, by simp, by simp, List.suffix_cons _ _, ?_, by simp, ?_⟩
    · intro _
      exact ⟨.failed, by simp, Or.inl rfl⟩
    · intro h
      exact absurd (Or.inl rfl) (h .failed (by simp))
  | case5 as b bs =>
    refine ⟨by simp, by simp, by simp, List.suffix_cons _ _, ?_, by simp, ?_⟩
    · intro _
      exact ⟨.wrote 0, by simp, Or.inr rfl⟩
    · intro h
      exact absurd (Or.inr rfl) (h (.wrote 0) (by simp))
  | case6 n as b bs hn r ih =>
    refine ⟨?_, ih.whole, ih.part, ih.answers.trans (List.suffix_cons _ _), ?_, ih.wait, ?_⟩
    · show (List.take n (b :: bs) ++ r.2.2.1) ++ r.2.2.2 = b :: bs
      rw [List.append_assoc, ih.split, List.take_append_drop]
    · intro h
      obtain ⟨a, ha, hb⟩ := ih.bad h
      exact ⟨a, by simp [ha], hb⟩
    · intro h
      have := ih.live fun a ha => h a (by simp [ha])
      rw [List.countP_cons_of_pos (by simp [takes])]
      show _ ≤ List.countP takes (writeLoop as (List.drop n (b :: bs))).2.1 +
        (List.take n (b :: bs) ++ (writeLoop as (List.drop n (b :: bs))).2.2.1).length
      rw [List.length_append, List.length_take, List.length_cons]
      omega

/-- what an operation does that is to bring standard output to the bytes `w` -/
structure Op (o : Out) (w : List UInt8) (r : IoEnd × Out) : Prop where
  grows : o.sent <+: r.2.sent
  part : r.2.sent ++ r.2.buf <+: w
  whole : r.1 = .done → r.2.sent ++ r.2.buf = w
  answers : r.2.answers <:+ o.answers
  bad : r.1 = .error → ∃ a ∈ o.answers, Bad a
  wait : r.1 = .waiting → r.2.answers = [] ∧ r.2.sent.length < w.length
  live : (∀ a ∈ o.answers, ¬ Bad a) →
    o.answers.countP takes + o.sent.length ≤ r.2.answers.countP takes + r.2.sent.length

theorem op_id (o : Out) : Op o (o.sent ++ o.buf) (.done, o) := by
  constructor <;> simp

theorem op_buffer (o : Out) (bs : List UInt8) :
    Op o (o.sent ++ o.buf ++ bs) (.done, { o with buf := o.buf ++ bs }) := by
  constructor <;> simp [List.append_assoc]

theorem op_then {o : Out} {w w' : List UInt8} {r : IoEnd × Out} {k : Out → IoEnd × Out} (h : Op o w r) (hw : w <+: w')
    (hk : ∀ o', r = (.done, o') → Op o' w' (k o')) : Op o w' (andThen r k) := by
  obtain ⟨e, o'⟩ := r
  cases e with
  | done =>
    have hk := hk o' rfl
    show Op o w' (k o')
    refine ⟨h.grows.trans hk.grows, hk.part, hk.whole, hk.answers.trans h.answers, ?_, hk.wait, ?_⟩
    · intro he
      obtain ⟨a, ha, hb⟩ := hk.bad he
      exact ⟨a, h.answers.subset ha, hb⟩
    · intro ha
      exact Nat.le_trans (h.live ha) (hk.live fun a hm => ha a (h.answers.subset hm))
  | error => exact ⟨h.grows, h.part.trans hw, nofun, h.answers, h.bad, nofun, h.live⟩
  | waiting =>
    exact ⟨h.grows, h.part.trans hw, nofun, h.answers, h.bad,
      fun he => ⟨(h.wait he).1, Nat.lt_of_lt_of_le (h.wait he).2 hw.length_le⟩, h.live⟩

theorem op_raw (o : Out) (bs : List UInt8) (hb : o.buf = []) : Op o (o.sent ++ o.buf ++ bs) (rawWriteAll false o bs) := by
  have h := writeLoop_loop o.answers bs
  unfold rawWriteAll
  simp only [Bool.false_eq_true, if_false]
  rw [hb, List.append_nil]
  refine ⟨List.prefix_append _ _, ?_, ?_, h.answers, h.bad, ?_, ?_⟩
  · show (o.sent ++ _) ++ [] <+: _
    rw [List.append_nil, List.prefix_append_right_inj]
    exact ⟨_, h.split⟩
  · intro hd
    show (o.sent ++ _) ++ [] = _
    have := h.split
    rw [h.whole hd, List.append_nil] at this
    rw [List.append_nil, this]
  · intro hw
    refine ⟨h.wait hw, ?_⟩
    have h1 := congrArg List.length h.split
    have h2 := h.part (by
      show (writeLoop o.answers bs).1 ≠ _
      have hw : (writeLoop o.answers bs).1 = .waiting := hw
      rw [hw]; simp)
    have h3 := List.length_pos_iff.2 h2
    show (o.sent ++ (writeLoop o.answers bs).2.2.1).length < _
    rw [List.length_append] at h1 ⊢
    rw [List.length_append]
    omega
  · intro ha
    have := h.live ha
    show _ ≤ List.countP takes (writeLoop o.answers bs).2.1 + (o.sent ++ _).length
    rw [List.length_append]
    omega

theorem op_flush (o : Out) : Op o (o.sent ++ o.buf) (flushBuf false o) := by
  have h := writeLoop_loop o.answers o.buf
  unfold flushBuf
  simp only [Bool.false_eq_true, if_false]
  refine ⟨List.prefix_append _ _, ?_, ?_, h.answers, h.bad, ?_, ?_⟩
  · show (o.sent ++ _) ++ _ <+: _
    rw [List.append_assoc, h.split]
    exact List.prefix_refl _
  · intro _
    show (o.sent ++ _) ++ _ = _
    rw [List.append_assoc, h.split]
  · intro hw
    refine ⟨h.wait hw, ?_⟩
    have h1 := congrArg List.length h.split
    have h2 := h.part (by
      have hw : (writeLoop o.answers o.buf).1 = .waiting := hw
      rw [hw]; simp)
    have h3 := List.length_pos_iff.2 h2
    show (o.sent ++ (writeLoop o.answers o.buf).2.2.1).length < _
    rw [List.length_append] at h1 ⊢
    rw [List.length_append]
    omega
  · intro ha
    have := h.live ha
    show _ ≤ List.countP takes (writeLoop o.answers o.buf).2.1 + (o.sent ++ _).length
    rw [List.length_append]
    omega

theorem flush_done {o o' : Out} (h : flushBuf false o = (.done, o')) : o'.buf = [] := by
  have hl := (writeLoop_loop o.answers o.buf).whole
  unfold flushBuf at h
  simp only [Bool.false_eq_true, if_false, Prod.mk.injEq] at h
  rw [← h.2]
  exact hl h.1

theorem op_bufWrite (cap : Nat) (o : Out) (bs : List UInt8) :
    Op o (o.sent ++ o.buf ++ bs) (bufWriteAll cap false o bs) := by
  unfold bufWriteAll
  split
  · exact op_buffer o bs
  · rename_i h1
    split
    · refine op_then (op_flush o) (List.prefix_append _ _) fun o' ho' => ?_
      have hw := (op_flush o).whole (by rw [ho'])
      rw [ho'] at hw
      rw [← hw]
      split
      · exact op_raw o' bs (flush_done ho')
      · exact op_buffer o' bs
    · rename_i h2
      refine op_then (op_id o) (List.prefix_append _ _) fun o' ho' => ?_
      cases ho'
      split
      · rename_i h3
        by_cases hb : o.buf = []
        · exact op_raw o bs hb
        · have := List.length_pos_iff.2 hb
          have hl : bs.length = 0 := by omega
          rw [List.eq_nil_of_length_eq_zero hl, List.append_nil]
          unfold rawWriteAll
          simp only [Bool.false_eq_true, if_false]
          rw [writeLoop.eq_def]
          simp only [List.append_nil]
          exact op_id o
      · exact op_buffer o bs

theorem op_flushLine (o : Out) : Op o (o.sent ++ o.buf) (flushIfCompletedLine false o) := by
  unfold flushIfCompletedLine
  split
  · exact op_flush o
  · exact op_id o

theorem op_line (cap : Nat) (o : Out) (bs : List UInt8) :
    Op o (o.sent ++ o.buf ++ bs) (lineWriteAll cap false o bs) := by
  unfold lineWriteAll
  split
  · refine op_then (op_flushLine o) (List.prefix_append _ _) fun o' ho' => ?_
    have hw := (op_flushLine o).whole (by rw [ho'])
    rw [ho'] at hw
    rw [← hw]
    exact op_bufWrite cap o' bs
  · rename_i i _
    have first : Op o (o.sent ++ o.buf ++ bs.take (i + 1))
        (if o.buf.isEmpty then rawWriteAll false o (bs.take (i + 1))
         else andThen (bufWriteAll cap false o (bs.take (i + 1))) fun o => flushBuf false o) := by
      split
      · rename_i he
        exact op_raw o _ (List.isEmpty_iff.1 he)
      · refine op_then (op_bufWrite cap o _) (List.prefix_refl _) fun o' ho' => ?_
        have hw := (op_bufWrite cap o (bs.take (i + 1))).whole (by rw [ho'])
        rw [ho'] at hw
        rw [← hw]
        exact op_flush o'
    refine op_then first ?_ fun o' ho' => ?_
    · rw [List.prefix_append_right_inj]
      exact List.take_prefix _ _
    · have hw := first.whole (by rw [ho'])
      rw [ho'] at hw
      have : o.sent ++ o.buf ++ bs = o'.sent ++ o'.buf ++ bs.drop (i + 1) := by
        rw [hw, List.append_assoc _ (bs.take _), List.take_append_drop]
      rw [this]
      exact op_bufWrite cap o' _

theorem op_print (cap : Nat) : ∀ (ps : List (List UInt8)) (o : Out),
    Op o (o.sent ++ o.buf ++ ps.flatten) (printPieces cap false o ps)
  | [], o => by
    rw [printPieces, List.flatten_nil, List.append_nil]
    exact op_id o
  | p :: ps, o => by
    rw [printPieces, List.flatten_cons, ← List.append_assoc]
    refine op_then (op_line cap o p) (List.prefix_append _ _) fun o' ho' => ?_
    have hw := (op_line cap o p).whole (by rw [ho'])
    rw [ho'] at hw
    rw [← hw]
    exact op_print cap ps o'

/-! ## The buffer never holds a line feed -/

theorem andThen_done {r : IoEnd × Out} {k : Out → IoEnd × Out} {o'' : Out} (h : andThen r k = (.done, o'')) :
    ∃ o', r = (.done, o') ∧ k o' = (.done, o'') := by
  obtain ⟨e, o'⟩ := r
  cases e with
  | done => exact ⟨o', rfl, h⟩
  | error => cases h
  | waiting => cases h

theorem raw_buf {closed : Bool} {o : Out} {bs : List UInt8} : (rawWriteAll closed o bs).2.buf = o.buf := by
  unfold rawWriteAll
  split <;> rfl

theorem bufWrite_buf {cap : Nat} {o o' : Out} {bs : List UInt8} (h : bufWriteAll cap false o bs = (.done, o')) :
    ((o'.buf = o.buf ++ bs ∧ (bs.length ≤ cap - o.buf.length)) ∨ (o'.buf = bs ∧ bs.length < cap) ∨ o'.buf = []) ∧
    (o.buf = [] → o'.buf.length < cap ∨ o'.buf = []) := by
  unfold bufWriteAll at h
  split at h
  · rename_i h1
    cases h
    refine ⟨Or.inl ⟨rfl, Nat.le_of_lt h1⟩, fun hb => Or.inl ?_⟩
    rw [hb] at h1 ⊢
    exact h1
  · obtain ⟨o1, h2, h3⟩ := andThen_done h
    split at h2
    · have hb := flush_done h2
      split at h3
      · have : o'.buf = o1.buf := by rw [← show (rawWriteAll false o1 bs).2 = o' by rw [h3]]; exact raw_buf
        rw [hb] at this
        exact ⟨Or.inr (Or.inr this), fun _ => Or.inr this⟩
      · cases h3
        rename_i hl
        rw [hb]
        exact ⟨Or.inr (Or.inl ⟨rfl, by omega⟩), fun _ => Or.inl (by simpa using hl)⟩
    · cases h2
      split at h3
      · rename_i h4
        have hb : o'.buf = o.buf := by rw [← show (rawWriteAll false o bs).2 = o' by rw [h3]]; exact raw_buf
        rw [hb]
        refine ⟨?_, fun h => Or.inr h⟩
        by_cases he : o.buf = []
        · exact Or.inr (Or.inr he)
        · have := List.length_pos_iff.2 he
          have hl : bs = [] := List.eq_nil_of_length_eq_zero (by omega)
          rw [hl]
          exact Or.inl ⟨by simp, by simp⟩
      · cases h3
        rename_i h4 h5
        refine ⟨Or.inl ⟨rfl, by omega⟩, fun hb => Or.inl ?_⟩
        rw [hb]
        simpa using h5

theorem lastNewline_none : ∀ {bs : List UInt8}, lastNewline bs = none → (0x0A : UInt8) ∉ bs
  | [], _ => by simp
  | b :: bs, h => by
    rw [lastNewline] at h
    cases hn : lastNewline bs with
    | some i => rw [hn] at h; cases h
    | none =>
      rw [hn] at h
      simp only at h
      split at h
      · cases h
      · rename_i hb
        simp only [List.mem_cons, not_or]
        exact ⟨fun e => hb (by rw [← e]; rfl), lastNewline_none hn⟩

theorem lastNewline_some : ∀ {bs : List UInt8} {i : Nat}, lastNewline bs = some i → (0x0A : UInt8) ∉ bs.drop (i + 1)
  | [], _, h => by cases h
  | b :: bs, i, h => by
    rw [lastNewline] at h
    cases hn : lastNewline bs with
    | some j =>
      rw [hn] at h
      cases h
      rw [List.drop_succ_cons]
      exact lastNewline_some hn
    | none =>
      rw [hn] at h
      simp only at h
      split at h
      · cases h
        rw [List.drop_succ_cons, List.drop_zero]
        exact lastNewline_none hn
      · cases h

theorem line_buf {cap : Nat} {o o' : Out} {bs : List UInt8} (h : lineWriteAll cap false o bs = (.done, o'))
    (hn : (0x0A : UInt8) ∉ o.buf) (hl : o.buf.length ≤ cap) :
    (0x0A : UInt8) ∉ o'.buf ∧ o'.buf.length ≤ cap ∧ (o.buf = [] → o'.buf.length < cap ∨ o'.buf = []) := by
  have key : ∀ (o1 : Out) (bs : List UInt8), bufWriteAll cap false o1 bs = (.done, o') → (0x0A : UInt8) ∉ o1.buf →
      (0x0A : UInt8) ∉ bs → o1.buf.length ≤ cap → (0x0A : UInt8) ∉ o'.buf ∧ o'.buf.length ≤ cap := by
    intro o1 bs hb h1 h2 h3
    rcases (bufWrite_buf hb).1 with ⟨e, hl⟩ | ⟨e, hl⟩ | e
    · rw [e, List.length_append]
      exact ⟨by simp [h1, h2], by omega⟩
    · rw [e]
      exact ⟨h2, by omega⟩
    · rw [e]
      simp
  unfold lineWriteAll at h
  split at h
  · rename_i hb
    obtain ⟨o1, h1, h2⟩ := andThen_done h
    have ho : o1.buf = o.buf ∨ o1.buf = [] := by
      unfold flushIfCompletedLine at h1
      split at h1
      · exact Or.inr (flush_done h1)
      · cases h1; exact Or.inl rfl
    have h3 : (0x0A : UInt8) ∉ o1.buf ∧ o1.buf.length ≤ cap := by
      rcases ho with e | e <;> rw [e]
      · exact ⟨hn, hl⟩
      · simp
    refine ⟨(key o1 bs h2 h3.1 (lastNewline_none hb) h3.2).1, (key o1 bs h2 h3.1 (lastNewline_none hb) h3.2).2,
      fun he => (bufWrite_buf h2).2 ?_⟩
    rcases ho with e | e
    · rw [e, he]
    · exact e
  · rename_i i hi
    obtain ⟨o1, h1, h2⟩ := andThen_done h
    have ho : o1.buf = [] := by
      split at h1
      · rename_i he
        rw [← show (rawWriteAll false o (bs.take (i + 1))).2 = o1 by rw [h1], raw_buf]
        exact List.isEmpty_iff.1 he
      · obtain ⟨o2, -, h3⟩ := andThen_done h1
        exact flush_done h3
    have h3 := key o1 _ h2 (by rw [ho]; simp) (lastNewline_some hi) (by rw [ho]; simp)
    exact ⟨h3.1, h3.2, fun _ => (bufWrite_buf h2).2 ho⟩

theorem print_buf {cap : Nat} : ∀ {ps : List (List UInt8)} {o o' : Out}, printPieces cap false o ps = (.done, o') →
    (0x0A : UInt8) ∉ o.buf → o.buf.length ≤ cap → (0x0A : UInt8) ∉ o'.buf ∧ o'.buf.length ≤ cap
  | [], o, o', h, hn, hl => by
    rw [printPieces] at h
    cases h
    exact ⟨hn, hl⟩
  | p :: ps, o, o', h, hn, hl => by
    rw [printPieces] at h
    obtain ⟨o1, h1, h2⟩ := andThen_done h
    have := line_buf h1 hn hl
    exact print_buf h2 this.1 this.2.1

end WanaKana
