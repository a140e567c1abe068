import Verif.Pv.Lemmas
/-
C91: what an inverter says is what is shown.
-/
namespace Verif.Pv

/-! The effect of the kinds of lines. -/

theorem prefix_false (a b : Text) (h : ¬ a <+: b) : a.isPrefixOf b = false := by
  rw [Bool.eq_false_iff]
  intro hp
  exact h (List.isPrefixOf_iff_prefix.mp hp)

theorem name_other (n : Text) (h : ∀ q : Quantity, ¬ q.name <+: n) (old : Option Quantity) :
    Fronius.line.name n old = old := by
  have h1 := prefix_false _ _ (h .energy)
  have h2 := prefix_false _ _ (h .freq)
  have h3 := prefix_false _ _ (h .voltage)
  have h4 := prefix_false _ _ (h .current)
  have h5 := prefix_false _ _ (h .power)
  unfold Quantity.name at h1 h2 h3 h4 h5
  unfold Fronius.line.name
  rw [h1, h2, h3, h4, h5]
  rfl

theorem name_quantity (q : Quantity) (old : Option Quantity) :
    Fronius.line.name q.name old = some q := by
  cases q <;> rfl

/-- A line `"key"...` whose key is not a `Value`. -/
theorem key_eff (p : Eff) (key rest : Text) (hw : word key) (hk : key.length ≤ 77)
    (hv : ¬ "Value".toList <+: key) :
    endEff p (' ' :: (key ++ '"' :: rest).map sub) = some (Fronius.line.name key p.1, p.2) := by
  have e : (key ++ '"' :: rest).map sub = key ++ ' ' :: rest.map sub := by
    rw [List.map_append, word_sub key hw]; rfl
  obtain ⟨v, hs⟩ := scan_key key (rest.map sub) hw hk
  rw [e, endEff, if_neg (by simp), lineEff, hs]
  dsimp only
  cases hq : p.1 with
  | none => rfl
  | some q =>
    dsimp only
    rw [prefix_false _ _ hv]
    rfl

theorem other_eff (p : Eff) (l : Line) (h : l.other) :
    endEff p (l.text.foldl grow []) = some p := by
  cases l with
  | plain t =>
    rw [Line.text, grow_unquoted t h, endEff, if_pos rfl]
  | member i key rest =>
    obtain ⟨h1, h2, h3, h4, h5, h6⟩ := h
    rw [Line.text, grow_member i _ h1, key_eff p key rest h2 h3 h6, name_other key h5]

theorem value_eff (p : Eff) (i v t : Text) (hi : unquoted i) (hw : word v) (hl : v.length ≤ 60)
    (ht : t = [] ∨ ∃ c r, t = c :: r ∧ blank c = true) :
    endEff p ((i ++ '"' :: ("Value".toList ++ '"' :: (" : ".toList ++ v ++ t))).foldl grow [])
      = some (none, fun r => if p.1 = some r then some v else p.2 r) := by
  rw [grow_member i _ hi, endEff, if_neg (by simp), lineEff, scan_value v t hw hl ht]
  dsimp only
  cases hq : p.1 with
  | none => simp; rfl
  | some q =>
    dsimp only
    rw [if_pos (by decide), Option.map_some]
    congr 2
    funext r
    by_cases hr : r = q
    · rw [if_pos hr, if_pos (by rw [hr])]
    · rw [if_neg hr, if_neg (fun h => hr (Option.some.inj h).symm)]

/-- The lines of a text are not too long for an `int`. -/
def short (ls : List Text) : Prop := ∀ l ∈ ls, l.length ≤ 2147483647

/-- A sequence of lines, from the beginning of a line. -/
theorem run_lines (f : Fronius) (h : Holds f []) (ls : List Text) (rest : Text) (p : Eff)
    (hs : short ls) (hn : ∀ l ∈ ls, ∀ c ∈ l, c ≠ '\n')
    (he : ls.foldlM (fun p l => endEff p (l.foldl grow [])) (f.fetch, f.got) = some p) :
    ∃ f', f.run (stream ls ++ rest) = f'.run rest ∧ Holds f' [] ∧ (f'.fetch, f'.got) = p := by
  induction ls generalizing f with
  | nil =>
    exact ⟨f, rfl, h, Option.some.inj he⟩
  | cons l ls ih =>
    rw [List.foldlM_cons] at he
    rw [stream, List.append_assoc, List.cons_append]
    have hl := hs l (by simp)
    rcases run_line f [] h l (stream ls ++ rest) (hn l (by simp)) (by simp; omega) with
      ⟨a, _⟩ | ⟨f1, a, b, c⟩
    · rw [a] at he
      simp at he
    · rw [a] at he
      obtain ⟨f2, e1, e2, e3⟩ := ih f1 c (fun x hx => hs x (by simp [hx]))
        (fun x hx => hn x (by simp [hx])) he
      exact ⟨f2, by rw [b, e1], e2, e3⟩

theorem others_fold (ls : List Line) (h : ∀ l ∈ ls, l.other) (p : Eff) :
    (ls.map Line.text).foldlM (fun p l => endEff p (l.foldl grow [])) p = some p := by
  induction ls with
  | nil => rfl
  | cons l ls ih =>
    rw [List.map_cons, List.foldlM_cons, other_eff p l (h l (by simp))]
    exact ih fun x hx => h x (by simp [hx])

/-- The effect of a block. -/
def blockEff (p : Eff) (b : Block) : Eff :=
  (none, fun r => if Fronius.line.name b.key p.1 = some r then some b.value else p.2 r)

theorem block_fold (b : Block) (h : b.ok) (p : Eff) :
    b.lines.foldlM (fun p l => endEff p (l.foldl grow [])) p = some (blockEff p b) := by
  obtain ⟨h1, h2, h3, h4, h5, h6, h7, h8, h9, h10, h11, h12⟩ := h
  have hv : ¬ "Value".toList <+: b.key := by
    rcases h5 with ⟨q, hq⟩ | h5
    · rw [hq]; cases q <;> decide
    · exact h5.2
  rw [Block.lines, List.foldlM_cons, Line.text, grow_member _ _ h1,
    key_eff p b.key b.rest h2 h3 hv, Option.bind_eq_bind, Option.bind_some, List.foldlM_append,
    others_fold b.mid h6, Option.bind_eq_bind, Option.bind_some, List.foldlM_cons,
    value_eff _ b.indent' b.value b.tail h7 h8 h9 h11, Option.bind_eq_bind, Option.bind_some,
    others_fold b.after h12]
  rfl

theorem blocks_fold (bs : List Block) (h : ∀ b ∈ bs, b.ok) (p : Eff) :
    (bs.flatMap Block.lines).foldlM (fun p l => endEff p (l.foldl grow [])) p
      = some (bs.foldl blockEff p) := by
  induction bs generalizing p with
  | nil => rfl
  | cons b bs ih =>
    rw [List.flatMap_cons, List.foldlM_append, block_fold b (h b (by simp)), Option.bind_eq_bind,
      Option.bind_some, ih (fun x hx => h x (by simp [hx]))]
    rfl

theorem answer_fold (a : Answer) (h : a.ok) (p : Eff) :
    a.lines.foldlM (fun p l => endEff p (l.foldl grow [])) p = some (a.blocks.foldl blockEff p) := by
  rw [Answer.lines, List.foldlM_append, others_fold a.head h.1, Option.bind_eq_bind,
    Option.bind_some, blocks_fold a.blocks h.2]

/-- The name of a block is what the chain of comparisons makes of it. -/
theorem block_name (b : Block) (h : b.ok) (q : Quantity) (old : Option Quantity) :
    (b.key = q.name → Fronius.line.name b.key old = some q) ∧
    (b.key ≠ q.name → Fronius.line.name b.key none ≠ some q) := by
  refine ⟨fun e => by rw [e, name_quantity], fun e he => ?_⟩
  obtain ⟨_, _, _, _, h5, _⟩ := h
  rcases h5 with ⟨q', hq⟩ | h5
  · rw [hq, name_quantity] at he
    exact e (by rw [hq, Option.some.inj he])
  · rw [name_other _ h5.1] at he
    exact absurd he (by simp)

theorem blocks_got (bs : List Block) (h : ∀ b ∈ bs, b.ok) (p : Eff) (q : Quantity) :
    (bs.foldl blockEff p).2 q
      = match (bs.reverse.find? fun b => b.key = q.name).map Block.value with
        | some v => some v
        | none => (bs.head?.elim (p.2 q) fun b =>
            if Fronius.line.name b.key p.1 = some q then some b.value else p.2 q) := by
  induction bs generalizing p with
  | nil => rfl
  | cons b bs ih =>
    rw [List.foldl_cons, ih (fun x hx => h x (by simp [hx])), List.reverse_cons, List.find?_append]
    cases hf : bs.reverse.find? fun b => b.key = q.name with
    | some x => rfl
    | none =>
      have hb := block_name b (h b (by simp)) q
      have key : (bs.head?.elim ((blockEff p b).2 q) fun c =>
          if Fronius.line.name c.key (blockEff p b).1 = some q then some c.value
          else (blockEff p b).2 q) = (blockEff p b).2 q := by
        cases bs with
        | nil => rfl
        | cons c cs =>
          have hc : c.key ≠ q.name := by
            rw [List.find?_eq_none] at hf
            have := hf c (by simp)
            simpa using this
          have := (block_name c (h c (by simp)) q none).2 hc
          simp only [List.head?_cons, Option.elim_some]
          rw [if_neg (show ¬ Fronius.line.name c.key (blockEff p b).1 = some q from this)]
      simp only [Option.map_none, Option.none_or, List.head?_cons, Option.elim_some]
      rw [key]
      by_cases hk : b.key = q.name
      · have : ([b].find? fun b => b.key = q.name) = some b := by simp [hk]
        rw [this]
        simp only [Option.map_some]
        rw [blockEff]
        simp only [(hb p.1).1 hk, if_true]
      · have : ([b].find? fun b => b.key = q.name) = none := by simp [hk]
        rw [this]
        rfl

/-! The properties of the reader of Fronius answers. -/

/-- The lines of an answer end where they end. -/
def Answer.proper (a : Answer) : Prop :=
  a.ok ∧ short a.lines ∧ ∀ l ∈ a.lines, ∀ c ∈ l, c ≠ '\n'

/-- **Complete answers.**  Whatever was read before, up to the end of a line and with no name waiting
for its value, a complete answer is read without undefined behaviour, and afterwards every quantity
is the one of the answer; a quantity the answer does not mention keeps its value.  The reader is then
again as the theorem needs it. -/
theorem answer_read (f : Fronius) (h : Holds f []) (hf : f.fetch = none) (a : Answer)
    (ha : a.proper) :
    ∃ f', f.run (stream a.lines) = some f' ∧ Holds f' [] ∧ f'.fetch = none ∧
      ∀ q, f'.got q = match a.says q with
        | some v => some v
        | none => f.got q := by
  obtain ⟨ha, hs, hn⟩ := ha
  obtain ⟨f', e1, e2, e3⟩ := run_lines f h a.lines [] _ hs hn (answer_fold a ha _)
  rw [List.append_nil] at e1
  refine ⟨f', e1, e2, ?_, fun q => ?_⟩
  · have : f'.fetch = (a.blocks.foldl blockEff (f.fetch, f.got)).1 := by rw [← e3]
    rw [this, hf]
    generalize f.got = g
    have key : ∀ (bs : List Block) (p : Eff), p.1 = none → (bs.foldl blockEff p).1 = none := by
      intro bs
      induction bs with
      | nil => exact fun p hp => hp
      | cons b bs ih => exact fun p _ => ih _ rfl
    exact key _ _ rfl
  · have : f'.got q = (a.blocks.foldl blockEff (f.fetch, f.got)).2 q := by rw [← e3]
    rw [this, blocks_got a.blocks ha.2, ← Answer.says]
    cases hsays : a.says q with
    | some v => rfl
    | none =>
      dsimp only
      cases hb : a.blocks with
      | nil => rfl
      | cons b bs =>
        simp only [List.head?_cons, Option.elim_some]
        by_cases hk : Fronius.line.name b.key f.fetch = some q
        · exfalso
          have hbo := ha.2 b (by rw [hb]; simp)
          rw [hf] at hk
          by_cases he : b.key = q.name
          · rw [Answer.says, hb] at hsays
            simp at hsays
            exact hsays.2 he
          · exact (block_name b hbo q none).2 he hk
        · rw [if_neg hk]

/-- **Any number of complete answers**, one after the other from the start: never undefined, and
each quantity is the one of the last answer that mentions it. -/
theorem answers_read (as : List Answer) (h : ∀ a ∈ as, a.proper) :
    ∃ f, Fronius.init.run (as.flatMap fun a => stream a.lines) = some f ∧
      ∀ q, f.got q = as.foldl (fun v a => match a.says q with
        | some w => some w
        | none => v) none := by
  have run_append : ∀ (f : Fronius) (x y : Text), f.run (x ++ y) = (f.run x).bind fun g => g.run y := by
    intro f x y
    induction x generalizing f with
    | nil => rfl
    | cons c x ih =>
      rw [List.cons_append, Fronius.run, Fronius.run]
      cases f.feed c with
      | none => rfl
      | some g => exact ih g
  have key : ∀ (as : List Answer) (f : Fronius), (∀ a ∈ as, a.proper) → Holds f [] →
      f.fetch = none → ∃ g, f.run (as.flatMap fun a => stream a.lines) = some g ∧
        ∀ q, g.got q = as.foldl (fun v a => match a.says q with
          | some w => some w
          | none => v) (f.got q) := by
    intro as
    induction as with
    | nil => exact fun f _ _ _ => ⟨f, rfl, fun _ => rfl⟩
    | cons a as ih =>
      intro f h hf hn
      obtain ⟨f1, e1, e2, e3, e4⟩ := answer_read f hf hn a (h a (by simp))
      obtain ⟨g, e5, e6⟩ := ih f1 (fun x hx => h x (by simp [hx])) e2 e3
      refine ⟨g, ?_, fun q => ?_⟩
      · rw [List.flatMap_cons, run_append, e1, Option.bind_some, e5]
      · rw [e6, e4, List.foldl_cons]
  obtain ⟨g, e1, e2⟩ := key as Fronius.init h init_holds rfl
  exact ⟨g, e1, e2⟩

/-- The state after any characters: some part of a line is collected. -/
theorem run_holds (f : Fronius) (l data : Text) (hf : Holds f l) (g : Fronius)
    (hl : l.length + data.length ≤ 2147483647) (h : f.run data = some g) : ∃ l', Holds g l' := by
  induction data generalizing f l with
  | nil => rw [Fronius.run] at h; exact ⟨l, Option.some.inj h ▸ hf⟩
  | cons c cs ih =>
    rw [Fronius.run] at h
    simp only [List.length_cons] at hl
    by_cases hc : c = '\n'
    · subst hc
      rcases feed_newline f l hf with ⟨_, b⟩ | ⟨f', _, b, hh⟩
      · rw [b] at h; simp at h
      · rw [b] at h
        exact ih f' [] hh (by simp; omega) h
    · have hgl : (grow l c).length ≤ l.length + 1 := by
        unfold grow; split <;> simp
      obtain ⟨f', e, _, _, hh⟩ := feed_char f l hf c hc (by omega)
      rw [e] at h
      exact ih f' _ hh (by omega) h

/-- **After a broken answer.**  The last answer may have been cut anywhere, even within a line: if
reading the first line of the next answer is defined, all quantities that answer mentions are
afterwards those of the answer. -/
theorem answer_after_cut (data first : Text) (a : Answer) (ha : a.proper) (f : Fronius)
    (hl : data.length + first.length ≤ 2147483647) (hn : ∀ c ∈ first, c ≠ '\n')
    (h : Fronius.init.run (data ++ (first ++ '\n' :: stream a.lines)) = some f) (q : Quantity)
    (v : Text) (hq : a.says q = some v) : f.got q = some v := by
  have run_append : ∀ (f : Fronius) (x y : Text), f.run (x ++ y) = (f.run x).bind fun g => g.run y := by
    intro f x y
    induction x generalizing f with
    | nil => rfl
    | cons c x ih =>
      rw [List.cons_append, Fronius.run, Fronius.run]
      cases f.feed c with
      | none => rfl
      | some g => exact ih g
  rw [run_append] at h
  cases hd : Fronius.init.run data with
  | none => rw [hd] at h; simp at h
  | some g =>
    rw [hd, Option.bind_some] at h
    obtain ⟨ha, hs, hnn⟩ := ha
    -- the collected part is no longer than the data
    have hcol : ∀ (data : Text) (f : Fronius) (l : Text) (g : Fronius), Holds f l →
        l.length + data.length ≤ 2147483647 → f.run data = some g →
        ∃ l', Holds g l' ∧ l'.length ≤ l.length + data.length := by
      intro data
      induction data with
      | nil => intro f l g hf _ h; exact ⟨l, Option.some.inj h ▸ hf, by simp⟩
      | cons c cs ih =>
        intro f l g hf hl h
        rw [Fronius.run] at h
        simp only [List.length_cons] at hl ⊢
        by_cases hc : c = '\n'
        · subst hc
          rcases feed_newline f l hf with ⟨_, b⟩ | ⟨f', _, b, hh⟩
          · rw [b] at h; simp at h
          · rw [b] at h
            obtain ⟨l', h1, h2⟩ := ih f' [] g hh (by simp; omega) h
            exact ⟨l', h1, by simp at h2; omega⟩
        · have hgl : (grow l c).length ≤ l.length + 1 := by
            unfold grow; split <;> simp
          obtain ⟨f', e, _, _, hh⟩ := feed_char f l hf c hc (by omega)
          rw [e] at h
          obtain ⟨l', h1, h2⟩ := ih f' _ g hh (by omega) h
          exact ⟨l', h1, by omega⟩
    obtain ⟨l, hh, hle⟩ := hcol data Fronius.init [] g init_holds (by simp; omega) hd
    simp only [List.length_nil, Nat.zero_add] at hle
    rcases run_line g l hh first (stream a.lines) hn (by omega) with ⟨_, b⟩ | ⟨g1, _, b, hg1⟩
    · rw [b] at h; simp at h
    · rw [b] at h
      obtain ⟨f', e1, e2, e3⟩ := run_lines g1 hg1 a.lines [] _ hs hnn (answer_fold a ha _)
      rw [List.append_nil, h] at e1
      obtain rfl : f = f' := Option.some.inj e1
      have : f.got q = (a.blocks.foldl blockEff (g1.fetch, g1.got)).2 q := by rw [← e3]
      rw [this, blocks_got a.blocks ha.2, ← Answer.says, hq]

/-- **The only way to go wrong.**  Whatever characters arrive (fewer than 2³¹), no array is left and
no counter overflows: reading is undefined only because a line has no word after its first
quotation mark, or has a word beginning with `Value` and no `: word` after it. -/
theorem undefined_only_without_word (data : Text) (hl : data.length ≤ 2147483647)
    (h : Fronius.init.run data = none) :
    ∃ l : Text, (scanColon (cstr (l.take 79))).1 = none ∨
      ∃ n, scanColon (cstr (l.take 79)) = (some n, none) ∧ "Value".toList <+: n := by
  have hline : ∀ (p : Eff) (l : Text), endEff p l = none →
      (scanColon (cstr (l.take 79))).1 = none ∨
        ∃ n, scanColon (cstr (l.take 79)) = (some n, none) ∧ "Value".toList <+: n := by
    intro p l he
    unfold endEff at he
    split at he
    · simp at he
    · unfold lineEff at he
      rcases hs : scanColon (cstr (l.take 79)) with ⟨n, v⟩
      rw [hs] at he
      cases n with
      | none => exact Or.inl rfl
      | some n =>
        dsimp only at he
        cases hp : p.1 with
        | none => rw [hp] at he; simp at he
        | some q =>
          rw [hp] at he
          dsimp only at he
          split at he
          next hv =>
            cases v with
            | none => exact Or.inr ⟨n, rfl, List.isPrefixOf_iff_prefix.mp hv⟩
            | some v => simp at he
          next => simp at he
  have key : ∀ (data : Text) (f : Fronius) (l : Text), Holds f l →
      l.length + data.length ≤ 2147483647 → f.run data = none →
      ∃ l : Text, (scanColon (cstr (l.take 79))).1 = none ∨
        ∃ n, scanColon (cstr (l.take 79)) = (some n, none) ∧ "Value".toList <+: n := by
    intro data
    induction data with
    | nil => intro f l _ _ h; simp [Fronius.run] at h
    | cons c cs ih =>
      intro f l hf hl h
      rw [Fronius.run] at h
      simp only [List.length_cons] at hl
      by_cases hc : c = '\n'
      · subst hc
        rcases feed_newline f l hf with ⟨a, _⟩ | ⟨f', _, b, hh⟩
        · exact ⟨l, hline _ l a⟩
        · rw [b] at h
          exact ih f' [] hh (by simp; omega) h
      · have hgl : (grow l c).length ≤ l.length + 1 := by
          unfold grow; split <;> simp
        obtain ⟨f', e, _, _, hh⟩ := feed_char f l hf c hc (by omega)
        rw [e] at h
        exact ih f' _ hh (by omega) h
  exact key data Fronius.init [] init_holds (by simp; omega) h

/-- Nothing an inverter (or who poses as it) sends is undefined behaviour. -/
def NeverUndefined : Prop :=
  ∀ data : Text, data.length ≤ 2147483647 → Fronius.init.run data ≠ none

/-- **False**: a line with a single quotation mark makes the reader compare a name that was never
read. -/
theorem never_undefined_violation : ¬ NeverUndefined := by
  intro h
  exact h ['"', '\n'] (by simp) (by decide +kernel)

/-- An answer of an inverter: a day's energy that is not shown, frequency, power. -/
def sample : Answer where
  head := [.plain "HTTP/1.1 200 OK\r".toList, .plain "{".toList,
    .member "   ".toList "Head".toList " : {".toList]
  blocks := [
    ⟨"  ".toList, "DAY_ENERGY".toList, " : {".toList, [.member [] "Unit".toList " : \"Wh\",".toList],
      "   ".toList, "8000".toList, [], [.plain "},".toList]⟩,
    ⟨"  ".toList, "FAC".toList, " : {".toList, [.member [] "Unit".toList " : \"Hz\",".toList],
      "   ".toList, "50.01".toList, "\r".toList, [.plain "},".toList]⟩,
    ⟨"  ".toList, "PAC".toList, " : {".toList, [.member [] "Unit".toList " : \"W\",".toList],
      "   ".toList, "1234".toList, [], [.plain "}".toList]⟩]

instance (w : Text) : Decidable (word w) := inferInstanceAs (Decidable (_ ∧ _))
instance (w : Text) : Decidable (unquoted w) := inferInstanceAs (Decidable (∀ _, _))

theorem sample_proper : sample.proper := by
  have hq : ∀ key : Text, (∀ q ∈ [Quantity.energy, .freq, .voltage, .current, .power],
      ¬ q.name <+: key) → ∀ q : Quantity, ¬ q.name <+: key := by
    intro key h q
    exact h q (by cases q <;> simp)
  have hu : (Line.member [] "Unit".toList " : \"Wh\",".toList).other :=
    ⟨by decide, by decide, by decide, by decide, hq _ (by decide), by decide⟩
  have hu2 : (Line.member [] "Unit".toList " : \"Hz\",".toList).other :=
    ⟨by decide, by decide, by decide, by decide, hq _ (by decide), by decide⟩
  have hu3 : (Line.member [] "Unit".toList " : \"W\",".toList).other :=
    ⟨by decide, by decide, by decide, by decide, hq _ (by decide), by decide⟩
  have hp1 : (Line.plain "},".toList).other := by show unquoted _; decide
  have hp2 : (Line.plain "}".toList).other := by show unquoted _; decide
  refine ⟨⟨?_, ?_⟩, ?_, ?_⟩
  · intro l hl
    simp only [sample, List.mem_cons, List.not_mem_nil, or_false] at hl
    rcases hl with rfl | rfl | rfl
    · show unquoted _; decide
    · show unquoted _; decide
    · exact ⟨by decide, by decide, by decide, by decide, hq _ (by decide), by decide⟩
  · intro b hb
    simp only [sample, List.mem_cons, List.not_mem_nil, or_false] at hb
    rcases hb with rfl | rfl | rfl
    · exact ⟨by decide, by decide, by decide, by decide, Or.inr ⟨hq _ (by decide), by decide⟩,
        by simpa using hu, by decide, by decide, by decide, by decide, Or.inl rfl,
        by simpa using hp1⟩
    · exact ⟨by decide, by decide, by decide, by decide, Or.inl ⟨.freq, rfl⟩,
        by simpa using hu2, by decide, by decide, by decide, by decide,
        Or.inr ⟨'\r', [], rfl, by decide⟩, by simpa using hp1⟩
    · exact ⟨by decide, by decide, by decide, by decide, Or.inl ⟨.power, rfl⟩,
        by simpa using hu3, by decide, by decide, by decide, by decide, Or.inl rfl,
        by simpa using hp2⟩
  · unfold short; decide +kernel
  · decide +kernel

example : sample.says .power = some "1234".toList ∧ sample.says .freq = some "50.01".toList ∧
    sample.says .current = none := by decide +kernel

example : (Fronius.init.run (stream sample.lines)).map (fun f => (f.got .power, f.got .freq,
    f.got .energy)) = some (some "1234".toList, some "50.01".toList, none) := by decide +kernel

/-- An answer that came to a halt within a line does no harm to the next one. -/
def CutIsHarmless : Prop :=
  ∀ (a b : Answer) (k : Nat), a.proper → b.proper →
    (stream a.lines).length + (stream b.lines).length ≤ 2147483647 →
    Fronius.init.run ((stream a.lines).take k ++ stream b.lines) ≠ none

/-- **False**: if the answer stops right after `"Value`, the first line of the next one is taken for
the rest of that line, has no colon, and the value converted was never read. -/
theorem cut_is_harmless_violation : ¬ CutIsHarmless := by
  intro h
  have := h sample sample 124 sample_proper sample_proper (by decide +kernel)
  revert this
  decide +kernel

/-- A stream of proper answers is harmless if each is complete. -/
theorem cut_is_harmless_partial (a b : Answer) (ha : a.proper) (hb : b.proper) :
    Fronius.init.run (stream a.lines ++ stream b.lines) ≠ none := by
  obtain ⟨f, hf, _⟩ := answers_read [a, b] (by
    intro x hx
    simp only [List.mem_cons, List.not_mem_nil, or_false] at hx
    rcases hx with rfl | rfl <;> assumption)
  simp only [List.flatMap_cons, List.flatMap_nil, List.append_nil] at hf
  rw [hf]
  simp

end Verif.Pv
