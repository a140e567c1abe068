import Verif.Registry.Model

/-!
# C79: the lists of objects are exact; C80: every element gets its turn

Specification: the objects that exist, in the order in which they were made.
-/

namespace Verif.Registry

/-! ## Specification -/

/-- The objects that exist, in the order in which they were made. -/
def living : List Nat → List Op → List Nat
  | l, [] => l
  | l, .create n :: os => living (l ++ [n]) os
  | l, .destroy n :: os => living (l.erase n) os
  | l, .turn _ :: os => living l os

/-- Only what does not exist is made, and only what exists is destroyed. -/
def Sensible : List Nat → List Op → Prop
  | _, [] => True
  | l, .create n :: os => n ∉ l ∧ Sensible (l ++ [n]) os
  | l, .destroy n :: os => n ∈ l ∧ Sensible (l.erase n) os
  | l, .turn _ :: os => Sensible l os

/-! ## Chains of pointers -/

/-- The pointers from `p` on go through the objects of the list, and end. -/
def Chain (h : Heap) : Option Nat → List Nat → Prop
  | none, [] => True
  | none, _ :: _ => False
  | some _, [] => False
  | some p, q :: l => p = q ∧ p ∈ h.alive ∧ Chain h (h.next p) l

theorem Chain.congr {h h' : Heap} : ∀ {l : List Nat} {p : Option Nat}, Chain h p l → (∀ x ∈ l, x ∈ h'.alive ∧ h'.next x = h.next x) → Chain h' p l := by
  intro l
  induction l with
  | nil => intro p hc _; cases p with
    | none => trivial
    | some _ => exact hc
  | cons q l ih =>
    intro p hc ha
    cases p with
    | none => exact hc
    | some p =>
      obtain ⟨rfl, h1, h2⟩ := hc
      obtain ⟨a1, a2⟩ := ha p (by simp)
      exact ⟨rfl, a1, by rw [a2]; exact ih h2 (fun x hx => ha x (by simp [hx]))⟩

theorem Chain.alive {h : Heap} : ∀ {l : List Nat} {p : Option Nat}, Chain h p l → ∀ x ∈ l, x ∈ h.alive := by
  intro l
  induction l with
  | nil => intro p _ x hx; cases hx
  | cons q l ih =>
    intro p hc x hx
    cases p with
    | none => exact hc.elim
    | some p =>
      obtain ⟨rfl, h1, h2⟩ := hc
      rcases List.mem_cons.1 hx with rfl | hx
      · exact h1
      · exact ih h2 x hx

theorem read_alive (h : Heap) (p : Nat) (hp : p ∈ h.alive) : h.read p = some (h.next p) := by simp [Heap.read, hp]

theorem Chain.none_nil {h : Heap} {l : List Nat} (hc : Chain h none l) : l = [] := by
  cases l with
  | nil => rfl
  | cons _ _ => exact hc.elim

theorem last_chain (h : Heap) : ∀ (l : List Nat) (q p fuel : Nat), Chain h (some p) (l ++ [q]) → (l ++ [q]).length ≤ fuel → h.last fuel p = some q := by
  intro l
  induction l with
  | nil =>
    intro q p fuel hc hf
    cases fuel with
    | zero => simp at hf
    | succ fuel =>
      obtain ⟨rfl, h1, h2⟩ := hc
      rw [Heap.last, read_alive h p h1]
      cases hn : h.next p with
      | none => rfl
      | some x => rw [hn] at h2; exact h2.elim
  | cons y l ih =>
    intro q p fuel hc hf
    cases fuel with
    | zero => simp at hf
    | succ fuel =>
      obtain ⟨rfl, h1, h2⟩ := hc
      rw [Heap.last, read_alive h p h1]
      cases hn : h.next p with
      | none => rw [hn] at h2; have := h2.none_nil; simp at this
      | some x =>
        rw [hn] at h2
        exact ih q x fuel h2 (by simp at hf ⊢; omega)

theorem before_chain (h : Heap) (n b : Nat) (post : List Nat) : ∀ (pre : List Nat) (p fuel : Nat), Chain h (some p) (pre ++ b :: n :: post) →
    n ∉ pre → n ≠ b → (pre ++ b :: n :: post).length ≤ fuel → h.before n fuel p = some b := by
  intro pre
  induction pre with
  | nil =>
    intro p fuel hc hn hb hf
    cases fuel with
    | zero => simp at hf
    | succ fuel =>
      obtain ⟨rfl, h1, h2⟩ := hc
      rw [Heap.before, read_alive h p h1]
      cases hx : h.next p with
      | none => rw [hx] at h2; exact h2.elim
      | some x =>
        rw [hx] at h2
        obtain ⟨rfl, _⟩ := h2
        simp
  | cons y pre ih =>
    intro p fuel hc hn hb hf
    cases fuel with
    | zero => simp at hf
    | succ fuel =>
      obtain ⟨rfl, h1, h2⟩ := hc
      rw [Heap.before, read_alive h p h1]
      cases hx : h.next p with
      | none => rw [hx] at h2; have := h2.none_nil; simp at this
      | some x =>
        rw [hx] at h2
        have hne : x ≠ n := by
          cases pre with
          | nil => obtain ⟨rfl, _⟩ := h2; exact fun h => hb h.symm
          | cons z pre => obtain ⟨rfl, _⟩ := h2; intro h; subst h; simp at hn
        simp only [hne, if_false]
        exact ih x fuel h2 (by simp at hn; exact hn.2) hb (by simp at hf ⊢; omega)

theorem visit_chain (h : Heap) : ∀ (l : List Nat) (p : Option Nat) (fuel : Nat), Chain h p l → l.length ≤ fuel → h.visit fuel p = some l := by
  intro l
  induction l with
  | nil =>
    intro p fuel hc _
    cases p with
    | none => cases fuel <;> rfl
    | some _ => exact hc.elim
  | cons q l ih =>
    intro p fuel hc hf
    cases p with
    | none => exact hc.elim
    | some p =>
      cases fuel with
      | zero => simp at hf
      | succ fuel =>
        obtain ⟨rfl, h1, h2⟩ := hc
        rw [Heap.visit, read_alive h p h1]
        simp only
        rw [ih _ fuel h2 (by simp at hf; omega)]
        rfl

/-! ## The list in memory is the list of the specification -/

/-- The pointers go through exactly the living objects. -/
def Exact (h : Heap) (l : List Nat) : Prop := Chain h h.first l ∧ h.alive.Perm l ∧ l.Nodup

theorem create_exact (h : Heap) (l : List Nat) (n : Nat) (hi : Exact h l) (hn : n ∉ l) :
    ∃ h', create h n = some h' ∧ Exact h' (l ++ [n]) ∧ (∀ p l', Chain h p l' → l' ≠ [] → (∃ pre, l = pre ++ l') → Chain h' p (l' ++ [n])) := by
  obtain ⟨hc, hp, hd⟩ := hi
  have hperm : (n :: h.alive).Perm (l ++ [n]) := (List.Perm.cons n hp).trans (List.perm_append_singleton n l).symm
  have hnd : (l ++ [n]).Nodup := (List.perm_append_singleton n l).nodup_iff.2 (List.nodup_cons.2 ⟨hn, hd⟩)
  have halloc : ∀ (p : Option Nat) (l' : List Nat), Chain h p l' → (∀ x ∈ l', x ∈ l) → Chain (h.alloc n) p l' := by
    intro p l' hc' hs
    refine hc'.congr (fun x hx => ⟨?_, ?_⟩)
    · exact List.mem_cons_of_mem _ (hc'.alive x hx)
    · have : x ≠ n := fun e => hn (e ▸ hs x hx)
      simp [Heap.alloc, this]
  unfold create
  cases hf : h.first with
  | none =>
    rw [hf] at hc
    have hl := hc.none_nil
    subst hl
    refine ⟨_, rfl, ⟨⟨rfl, List.mem_cons_self, ?_⟩, hperm, hnd⟩, ?_⟩
    · simp [Heap.alloc, Chain]
    · intro p l' _ h1 ⟨pre, h2⟩
      have : l' = [] := by cases l' with
        | nil => rfl
        | cons _ _ => simp at h2
      exact absurd this h1
  | some p =>
    rw [hf] at hc
    rcases List.eq_nil_or_concat l with hl | ⟨k, q, hl⟩
    · subst hl; exact hc.elim
    · rw [List.concat_eq_append] at hl
      have hc' := halloc _ _ hc (fun x hx => hx)
      have hlen := hp.length_eq
      have hlast := last_chain (h.alloc n) k q p (h.alive.length + 1) (hl ▸ hc') (by rw [← hl]; omega)
      simp only [hlast]
      have hqa : q ∈ (h.alloc n).alive := by
        have : q ∈ l := by rw [hl]; simp
        exact List.mem_cons_of_mem _ (hp.mem_iff.2 this)
      refine ⟨_, by rw [Heap.write, if_pos hqa], ?_⟩
      have hqn : q ≠ n := by
        intro e
        apply hn
        rw [hl, ← e]
        simp
      have ext : ∀ (k' : List Nat) (p' : Option Nat), Chain h p' (k' ++ [q]) → (∀ x ∈ k' ++ [q], x ∈ l) → (k' ++ [q]).Nodup →
          Chain { h.alloc n with next := fun x => if x = q then some n else (h.alloc n).next x } p' (k' ++ [q] ++ [n]) := by
        intro k'
        induction k' with
        | nil =>
          intro p' hc2 hs2 _
          cases p' with
          | none => exact hc2.elim
          | some p' =>
            obtain ⟨rfl, a1, a2⟩ := hc2
            refine ⟨rfl, hqa, ?_⟩
            show Chain _ (if p' = p' then some n else _) [n]
            rw [if_pos rfl]
            refine ⟨rfl, List.mem_cons_self, ?_⟩
            show Chain _ (if n = p' then some n else (h.alloc n).next n) []
            rw [if_neg (fun e => hqn e.symm)]
            simp [Heap.alloc, Chain]
        | cons y k' ih =>
          intro p' hc2 hs2 hd2
          cases p' with
          | none => exact hc2.elim
          | some p' =>
            obtain ⟨rfl, a1, a2⟩ := hc2
            have hpq : p' ≠ q := by
              intro e
              rw [e, List.cons_append, List.nodup_cons] at hd2
              exact hd2.1 (by simp)
            have hpn : p' ≠ n := fun e => hn (e ▸ hs2 p' (by simp))
            refine ⟨rfl, List.mem_cons_of_mem _ a1, ?_⟩
            show Chain _ (if p' = q then some n else (h.alloc n).next p') _
            rw [if_neg hpq, show (h.alloc n).next p' = h.next p' by simp [Heap.alloc, hpn]]
            rw [List.cons_append, List.nodup_cons] at hd2
            exact ih _ a2 (fun x hx => hs2 x (by simp at hx ⊢; exact Or.inr hx)) hd2.2
      refine ⟨⟨?_, hperm, hnd⟩, ?_⟩
      · show Chain _ h.first _
        rw [hf, hl]
        exact ext k (some p) (hl ▸ hc) (fun x hx => hl ▸ hx) (hl ▸ hd)
      · intro p' l' hc2 hne ⟨pre, hpre⟩
        rcases List.eq_nil_or_concat l' with hl' | ⟨k', q', hl'⟩
        · exact absurd hl' hne
        · rw [List.concat_eq_append] at hl'
          have hqq : q' = q := by
            rw [hl', hl, ← List.append_assoc] at hpre
            exact (List.append_inj_right' hpre rfl |> List.cons.inj |>.1).symm
          subst hqq
          rw [hl'] at hc2 ⊢
          have hsub : ∀ x ∈ k' ++ [q'], x ∈ l := by intro x hx; rw [hpre, hl']; simp at hx ⊢; right; exact hx
          have hd' : (k' ++ [q']).Nodup := by rw [← hl']; rw [hpre] at hd; exact (List.nodup_append.1 hd).2.1
          exact ext k' p' hc2 hsub hd'

theorem destroy_exact (h : Heap) (l : List Nat) (n : Nat) (hi : Exact h l) (hn : n ∈ l) :
    ∃ h', destroy h n = some h' ∧ Exact h' (l.erase n) := by
  obtain ⟨hc, hp, hd⟩ := hi
  have hperm : (h.alive.erase n).Perm (l.erase n) := hp.erase n
  have hnd : (l.erase n).Nodup := hd.erase n
  have hna : n ∈ h.alive := hp.mem_iff.2 hn
  obtain ⟨pre, post, hl⟩ := List.append_of_mem hn
  have hnpre : n ∉ pre := by
    rw [hl, List.nodup_append] at hd
    intro hx
    exact hd.2.2 n hx n (by simp) rfl
  have hnpost : n ∉ post := by
    rw [hl, List.nodup_append, List.nodup_cons] at hd
    exact hd.2.1.1
  have herase : l.erase n = pre ++ post := by
    rw [hl, List.erase_append_right _ hnpre, List.erase_cons_head]
  have hstay : ∀ x, x ∈ h.alive → x ≠ n → x ∈ h.alive.erase n := fun x hx hne => (List.mem_erase_of_ne hne).2 hx
  unfold destroy
  cases pre with
  | nil =>
    rw [hl] at hc
    cases hf : h.first with
    | none => rw [hf] at hc; exact hc.elim
    | some p =>
      rw [hf] at hc
      obtain ⟨rfl, h1, h2⟩ := hc
      rw [if_pos rfl, read_alive h _ hna]
      refine ⟨_, rfl, ?_, hperm, hnd⟩
      rw [herase]
      show Chain _ (h.next p) ([] ++ post)
      refine h2.congr (fun x hx => ⟨hstay x (h2.alive x hx) (fun e => hnpost (e ▸ hx)), rfl⟩)
  | cons y pre =>
    cases hf : h.first with
    | none => rw [hf, hl] at hc; exact hc.elim
    | some p =>
      have hpy : p = y := by rw [hf, hl] at hc; exact hc.1
      have hpn : p ≠ n := by intro e; apply hnpre; rw [← e, hpy]; simp
      rw [if_neg (by simp [hpn])]
      obtain ⟨k, b, hk⟩ : ∃ k b, y :: pre = k ++ [b] := by
        rcases List.eq_nil_or_concat (y :: pre) with e | ⟨k, b, e⟩
        · cases e
        · exact ⟨k, b, by rw [e, List.concat_eq_append]⟩
      have hl2 : l = k ++ b :: n :: post := by rw [hl, hk]; simp
      have hlen := hp.length_eq
      have hbn : n ≠ b := by intro e; apply hnpre; rw [hk, e]; simp
      have hb := before_chain h n b post k p (h.alive.length + 1) (by rw [← hl2, ← hf]; exact hc)
        (fun hx => hnpre (by rw [hk]; simp [hx])) hbn (by rw [← hl2]; omega)
      have hba : b ∈ h.alive := hp.mem_iff.2 (by rw [hl2]; simp)
      simp only [hb, read_alive h n hna, Heap.write, if_pos hba]
      refine ⟨_, rfl, ?_, hperm, hnd⟩
      show Chain _ h.first _
      rw [herase, hk]
      have ext : ∀ (k' : List Nat) (p' : Option Nat), Chain h p' (k' ++ b :: n :: post) → (k' ++ b :: n :: post).Nodup →
          Chain ({ h with next := fun x => if x = b then h.next n else h.next x }.free n) p' (k' ++ [b] ++ post) := by
        intro k'
        induction k' with
        | nil =>
          intro p' hc2 hd2
          cases p' with
          | none => exact hc2.elim
          | some p' =>
            obtain ⟨rfl, a1, a2⟩ := hc2
            refine ⟨rfl, hstay p' a1 (fun e => hbn e.symm), ?_⟩
            show Chain _ (if p' = p' then h.next n else h.next p') post
            rw [if_pos rfl]
            cases hx : h.next p' with
            | none => rw [hx] at a2; exact a2.elim
            | some x =>
              rw [hx] at a2
              obtain ⟨rfl, a3, a4⟩ := a2
              refine a4.congr (fun z hz => ?_)
              have hzb : z ≠ p' := by
                intro e; subst e
                simp only [List.nil_append, List.nodup_cons] at hd2
                exact hd2.1 (by simp [hz])
              refine ⟨hstay z (a4.alive z hz) (fun e => hnpost (e ▸ hz)), ?_⟩
              show (if z = p' then _ else h.next z) = h.next z
              rw [if_neg hzb]
        | cons y' k' ih =>
          intro p' hc2 hd2
          cases p' with
          | none => exact hc2.elim
          | some p' =>
            obtain ⟨rfl, a1, a2⟩ := hc2
            rw [List.cons_append, List.nodup_cons] at hd2
            have hpb : p' ≠ b := by intro e; apply hd2.1; rw [e]; simp
            have hpn : p' ≠ n := by intro e; apply hd2.1; rw [e]; simp
            refine ⟨rfl, hstay p' a1 hpn, ?_⟩
            show Chain _ (if p' = b then h.next n else h.next p') _
            rw [if_neg hpb]
            exact ih _ a2 hd2.2
      exact ext k h.first (by rw [← hl2]; exact hc) (by rw [← hl2]; exact hd)

theorem empty_exact : Exact Heap.empty [] := ⟨trivial, List.Perm.refl _, List.nodup_nil⟩

theorem members_exact (h : Heap) (l : List Nat) (hi : Exact h l) : h.members = some l :=
  visit_chain h l h.first _ hi.1 (by rw [hi.2.1.length_eq]; exact Nat.le_refl _)

/-! ## Turns -/

/-- The elements called in one turn over a list, and those left for the next: up to the first that answers no. -/
def upTo (ans : Nat → Bool) : List Nat → List Nat × List Nat
  | [] => ([], [])
  | p :: l => if ans p then (p :: (upTo ans l).1, (upTo ans l).2) else ([p], l)

theorem upTo_split (ans : Nat → Bool) (l : List Nat) : (upTo ans l).1 ++ (upTo ans l).2 = l ∧ (l ≠ [] → (upTo ans l).1 ≠ []) := by
  induction l with
  | nil => exact ⟨rfl, fun h => absurd rfl h⟩
  | cons p l ih =>
    unfold upTo
    split
    · exact ⟨by simp [ih.1], fun _ => by simp⟩
    · exact ⟨rfl, fun _ => by simp⟩

theorem turn_chain (h : Heap) (ans : Nat → Bool) : ∀ (l : List Nat) (p : Option Nat) (fuel : Nat), Chain h p l → l.length ≤ fuel →
    ∃ q, h.turn ans fuel p = some ((upTo ans l).1, q) ∧ Chain h q (upTo ans l).2 := by
  intro l
  induction l with
  | nil =>
    intro p fuel hc _
    cases p with
    | none => cases fuel <;> exact ⟨none, rfl, trivial⟩
    | some _ => exact hc.elim
  | cons y l ih =>
    intro p fuel hc hf
    cases p with
    | none => exact hc.elim
    | some p =>
      cases fuel with
      | zero => simp at hf
      | succ fuel =>
        obtain ⟨rfl, h1, h2⟩ := hc
        rw [Heap.turn, read_alive h p h1]
        dsimp only
        unfold upTo
        cases ans p with
        | false => exact ⟨h.next p, rfl, h2⟩
        | true =>
          obtain ⟨q, e1, e2⟩ := ih _ fuel h2 (by simp at hf; omega)
          refine ⟨q, ?_, by simpa using e2⟩
          rw [e1]; rfl

/-- The list in memory is exact and the pointer of the main loop is in it, or will not be used. -/
def Good (s : Loop) (l : List Nat) : Prop :=
  Exact s.heap l ∧ (s.invalid = true ∨ ∃ pre suf, l = pre ++ suf ∧ Chain s.heap s.ptr suf)

theorem start_chain (s : Loop) (l : List Nat) (hg : Good s l) : ∃ pre st, l = pre ++ st ∧ Chain s.heap s.start st ∧ (l ≠ [] → st ≠ []) := by
  obtain ⟨he, h⟩ := hg
  unfold Loop.start
  cases hi : s.invalid with
  | true => exact ⟨[], l, rfl, he.1, id⟩
  | false =>
    rcases h with h | ⟨pre, suf, h1, h2⟩
    · rw [hi] at h; cases h
    · cases hp : s.ptr with
      | none => exact ⟨[], l, rfl, he.1, id⟩
      | some p =>
        rw [hp] at h2
        refine ⟨pre, suf, h1, h2, fun _ => ?_⟩
        intro e
        rw [e] at h2
        exact h2.elim

theorem step_good (s : Loop) (l : List Nat) (o : Op) (os : List Op) (hg : Good s l) (ho : Sensible l (o :: os)) :
    ∃ s' v l', step s o = some (s', v) ∧ Good s' l' ∧ Sensible l' os ∧ living l (o :: os) = living l' os := by
  cases o with
  | create n =>
    obtain ⟨h', h1, h2, h3⟩ := create_exact s.heap l n hg.1 ho.1
    refine ⟨_, _, l ++ [n], by rw [step, h1]; rfl, ⟨h2, ?_⟩, ho.2, rfl⟩
    rcases hg.2 with hi | ⟨pre, suf, e1, e2⟩
    · exact Or.inl hi
    · refine Or.inr ?_
      by_cases hs : suf = []
      · refine ⟨l ++ [n], [], by simp, ?_⟩
        subst hs
        show Chain h' s.ptr []
        cases hp : s.ptr with
        | none => trivial
        | some _ => rw [hp] at e2; exact e2.elim
      · exact ⟨pre, suf ++ [n], by rw [e1]; simp, h3 _ _ e2 hs ⟨pre, e1⟩⟩
  | destroy n =>
    obtain ⟨h', h1, h2⟩ := destroy_exact s.heap l n hg.1 ho.1
    exact ⟨_, _, l.erase n, by rw [step, h1]; rfl, ⟨h2, Or.inl rfl⟩, ho.2, rfl⟩
  | turn ans =>
    obtain ⟨pre, st, e1, e2, _⟩ := start_chain s l hg
    have hlen := hg.1.2.1.length_eq
    obtain ⟨q, t1, t2⟩ := turn_chain s.heap ans st s.start s.heap.alive.length e2 (by rw [hlen, e1]; simp)
    refine ⟨{ s with ptr := q, invalid := false }, _, l, by rw [step, t1]; rfl, ⟨hg.1, Or.inr ⟨pre ++ (upTo ans st).1, (upTo ans st).2, ?_, t2⟩⟩, ho, rfl⟩
    rw [List.append_assoc, (upTo_split ans st).1, e1]

theorem run_good (os : List Op) : ∀ (s : Loop) (l : List Nat), Good s l → Sensible l os →
    ∃ s' vs, run s os = some (s', vs) ∧ Good s' (living l os) := by
  induction os with
  | nil => intro s l hg _; exact ⟨s, [], rfl, hg⟩
  | cons o os ih =>
    intro s l hg ho
    obtain ⟨s1, v, l1, h1, h2, h3, h4⟩ := step_good s l o os hg ho
    obtain ⟨s2, vs, h5, h6⟩ := ih s1 l1 h2 h3
    exact ⟨s2, v :: vs, by rw [run, h1]; dsimp only; rw [h5]; rfl, by rw [h4]; exact h6⟩

theorem good_empty : Good Loop.empty [] := ⟨empty_exact, Or.inr ⟨[], [], rfl, trivial⟩⟩

/-- **C79.** Whatever is made and destroyed, in whatever order, with turns of the main loop in between: nothing
that no longer exists is touched, and a walk over the list visits exactly the objects that exist, each once,
in the order in which they were made. -/
theorem list_exact (os : List Op) (ho : Sensible [] os) :
    ∃ s vs, run Loop.empty os = some (s, vs) ∧ s.heap.members = some (living [] os) ∧ (living [] os).Nodup := by
  obtain ⟨s, vs, h1, h2⟩ := run_good os Loop.empty [] good_empty ho
  exact ⟨s, vs, h1, members_exact _ _ h2.1, h2.1.2.2⟩

/-- Three made, the middle one and then the first destroyed, with turns between. -/
def someOps : List Op := [.create 7, .create 3, .turn (fun _ => false), .create 5, .destroy 3, .turn (fun _ => true), .destroy 7, .create 3]

example : Sensible [] someOps ∧ living [] someOps = [5, 3] := by
  refine ⟨?_, by decide⟩
  simp [someOps, Sensible]

/-! ## Everyone gets a turn -/

theorem turns_prefix (as : List (Nat → Bool)) : ∀ (s : Loop) (l pre st : List Nat), Exact s.heap l → l ≠ [] → l = pre ++ st →
    Chain s.heap s.start st → st ≠ [] → ∃ s' ws, run s (as.map .turn) = some (s', ws) ∧
      ws.flatten <+: st ++ (List.replicate as.length l).flatten ∧ as.length ≤ ws.flatten.length := by
  induction as with
  | nil => intro s l pre st _ _ _ _ _; exact ⟨s, [], rfl, by simp, by simp⟩
  | cons a as ih =>
    intro s l pre st he hl e1 e2 hst
    have hlen := he.2.1.length_eq
    obtain ⟨q, t1, t2⟩ := turn_chain s.heap a st s.start s.heap.alive.length e2 (by rw [hlen, e1]; simp)
    obtain ⟨u1, u2⟩ := upTo_split a st
    have hv := u2 hst
    have hstart : ∃ pre' st', l = pre' ++ st' ∧ Chain s.heap (Loop.start { s with ptr := q, invalid := false }) st' ∧ st' ≠ [] ∧
        (upTo a st).1 ++ (st' ++ (List.replicate as.length l).flatten) <+: st ++ (List.replicate (as.length + 1) l).flatten := by
      rw [List.replicate_succ, List.flatten_cons]
      cases q with
      | none =>
        have hr := t2.none_nil
        refine ⟨[], l, rfl, he.1, hl, ?_⟩
        rw [hr, List.append_nil] at u1
        rw [u1]
        exact List.prefix_refl _
      | some q =>
        refine ⟨pre ++ (upTo a st).1, (upTo a st).2, by rw [List.append_assoc, u1, e1], t2, ?_, ?_⟩
        · intro e; rw [e] at t2; exact t2.elim
        · rw [← List.append_assoc, u1]
          refine (List.prefix_append_right_inj st).2 ?_
          rw [← List.flatten_cons, ← List.replicate_succ, List.replicate_succ', List.flatten_append]
          exact List.prefix_append _ _
    obtain ⟨pre', st', f1, f2, f3, f4⟩ := hstart
    obtain ⟨s', ws, r1, r2, r3⟩ := ih { s with ptr := q, invalid := false } l pre' st' he hl f1 f2 f3
    refine ⟨s', (upTo a st).1 :: ws, ?_, ?_, ?_⟩
    · rw [List.map_cons, run, step, t1]
      dsimp only [Option.map_some]
      rw [r1]; rfl
    · rw [List.flatten_cons, List.length_cons]
      exact ((List.prefix_append_right_inj _).2 r2).trans f4
    · rw [List.flatten_cons, List.length_cons, List.length_append]
      have : 0 < (upTo a st).1.length := List.length_pos_iff.2 hv
      omega

/-- **C80.** The elements are called round and round: whatever was made and destroyed before, the calls of
any number of turns follow the list from some place on, over and over; each turn calls at least one element. -/
theorem round_robin (os : List Op) (ho : Sensible [] os) (hne : living [] os ≠ []) (as : List (Nat → Bool)) :
    ∃ s vs s' ws pre st, run Loop.empty os = some (s, vs) ∧ run s (as.map .turn) = some (s', ws) ∧
      living [] os = pre ++ st ∧ st ≠ [] ∧ ws.flatten <+: st ++ (List.replicate as.length (living [] os)).flatten ∧
      as.length ≤ ws.flatten.length := by
  obtain ⟨s, vs, h1, h2⟩ := run_good os Loop.empty [] good_empty ho
  obtain ⟨pre, st, e1, e2, e3⟩ := start_chain s _ h2
  obtain ⟨s', ws, r1, r2, r3⟩ := turns_prefix as s _ pre st h2.1 hne e1 e2 (e3 hne)
  exact ⟨s, vs, s', ws, pre, st, h1, r1, e1, e3 hne, r2, r3⟩

/-- **C80.** In as many turns as there are elements every element is called, however many of them answer
no (that is, have sent something). -/
theorem everyone_gets_a_turn (os : List Op) (ho : Sensible [] os) (as : List (Nat → Bool)) (hm : (living [] os).length ≤ as.length) :
    ∃ s vs s' ws, run Loop.empty os = some (s, vs) ∧ run s (as.map .turn) = some (s', ws) ∧ ∀ p ∈ living [] os, p ∈ ws.flatten := by
  by_cases hne : living [] os = []
  · obtain ⟨s, vs, h1, h2⟩ := run_good os Loop.empty [] good_empty ho
    rw [hne] at h2
    have hso : ∀ (as : List (Nat → Bool)), Sensible [] (as.map .turn) := by
      intro as
      induction as with
      | nil => trivial
      | cons a as ih => exact ih
    obtain ⟨s', ws, h3, _⟩ := run_good (as.map .turn) s [] h2 (hso as)
    exact ⟨s, vs, s', ws, h1, h3, by rw [hne]; intro p hp; cases hp⟩
  · obtain ⟨s, vs, s', ws, pre, st, h1, h2, h3, h4, h5, h6⟩ := round_robin os ho hne as
    refine ⟨s, vs, s', ws, h1, h2, ?_⟩
    obtain ⟨k, hk⟩ : ∃ k, as.length = k + 1 := by
      cases h : as.length with
      | zero => rw [h] at hm; exact absurd (List.length_eq_zero_iff.1 (Nat.le_zero.1 hm)) hne
      | succ k => exact ⟨k, rfl⟩
    have hpre : st ++ pre <+: st ++ (List.replicate as.length (living [] os)).flatten := by
      rw [hk, List.replicate_succ, List.flatten_cons]
      refine (List.prefix_append_right_inj st).2 ?_
      conv => rhs; rw [h3]
      rw [List.append_assoc]
      exact List.prefix_append _ _
    have hsub : st ++ pre <+: ws.flatten := by
      refine List.prefix_of_prefix_length_le hpre h5 ?_
      have : (living [] os).length = pre.length + st.length := by rw [h3, List.length_append]
      rw [List.length_append]; omega
    intro p hp
    refine hsub.subset ?_
    rw [h3] at hp
    rw [List.mem_append] at hp ⊢
    exact hp.symm

example : Sensible [] someOps ∧ (living [] someOps).length ≤ (List.replicate 2 (fun _ : Nat => false)).length := by
  refine ⟨by simp [someOps, Sensible], by decide⟩

/-- How many turns there are. -/
def turnsIn : List Op → Nat
  | [] => 0
  | .turn _ :: os => turnsIn os + 1
  | _ :: os => turnsIn os

/-- Nobody destroys `p`. -/
def Spared (p : Nat) (os : List Op) : Prop := ∀ o ∈ os, ∀ n, o = .destroy n → n ≠ p

/-- The full claim of C80: an element that stays is called in some number of turns that depends only on who
was there when it began to wait, whoever else comes and goes. -/
def NeverStarved : Prop :=
  ∀ (os : List Op) (p : Nat), Sensible [] os → p ∈ living [] os → ∃ k, ∀ rest, Sensible [] (os ++ rest) → Spared p rest →
    k ≤ turnsIn rest → ∀ r, run Loop.empty (os ++ rest) = some r → p ∈ (r.2.drop os.length).flatten

theorem run_append (os os' : List Op) : ∀ s, run s (os ++ os') = (run s os).bind (fun r => (run r.1 os').map (fun r' => (r'.1, r.2 ++ r'.2))) := by
  induction os with
  | nil => intro s; simp only [List.nil_append, run, Option.bind_some]; cases run s os' <;> rfl
  | cons o os ih =>
    intro s
    rw [List.cons_append, run, run]
    cases step s o with
    | none => rfl
    | some r =>
      obtain ⟨s', v⟩ := r
      dsimp only
      rw [ih]
      cases run s' os with
      | none => rfl
      | some r =>
        simp only [Option.map_some, Option.bind_some]
        cases run r.1 os' <;> rfl

/-- An element made, a turn in which element 1 has something to send, that element destroyed. -/
def busy : List Op := [.create 3, .turn (fun p => p != 1), .destroy 3]

/-- Many times. -/
def busyFor (n : Nat) : List Op := (List.replicate n busy).flatten

theorem busy_round (s : Loop) (hg : Exact s.heap [1, 2]) (hi : s.start = s.heap.first) :
    ∃ s', run s busy = some (s', [[], [1], []]) ∧ Exact s'.heap [1, 2] ∧ s'.start = s'.heap.first := by
  obtain ⟨h1, c1, c2, _⟩ := create_exact s.heap [1, 2] 3 hg (by decide)
  have hs1 : Loop.start { s with heap := h1 } = h1.first := by
    unfold Loop.start at hi ⊢
    have hf : h1.first = s.heap.first := by
      unfold create at c1
      have hc := hg.1
      cases hf : s.heap.first with
      | none => rw [hf] at hc; exact hc.elim
      | some p =>
        rw [hf] at c1
        dsimp only at c1
        cases hl : (s.heap.alloc 3).last (s.heap.alive.length + 1) p with
        | none => rw [hl] at c1; cases c1
        | some q =>
          rw [hl] at c1
          simp only [Heap.write] at c1
          split at c1
          · injection c1 with c1; rw [← c1]; exact hf
          · cases c1
    dsimp only
    rw [hf]; exact hi
  obtain ⟨q, t1, t2⟩ := turn_chain h1 (fun p => p != 1) [1, 2, 3] h1.first h1.alive.length c2.1 (by rw [c2.2.1.length_eq]; decide)
  obtain ⟨h2, d1, d2⟩ := destroy_exact h1 [1, 2, 3] 3 c2 (by decide)
  refine ⟨{ heap := h2, ptr := q, invalid := true }, ?_, d2, rfl⟩
  have e1 : step s (.create 3) = some ({ s with heap := h1 }, []) := by rw [step, c1]; rfl
  have e2 : step { s with heap := h1 } (.turn (fun p => p != 1)) = some ({ heap := h1, ptr := q, invalid := false }, [1]) := by
    rw [step, hs1, t1]; rfl
  have e3 : step { heap := h1, ptr := q, invalid := false } (.destroy 3) = some ({ heap := h2, ptr := q, invalid := true }, []) := by
    rw [step, d1]; rfl
  rw [busy, run, e1]; dsimp only
  rw [run, e2]; dsimp only
  rw [run, e3]
  rfl

theorem busy_rounds (n : Nat) : ∀ (s : Loop), Exact s.heap [1, 2] → s.start = s.heap.first →
    ∃ s', run s (busyFor n) = some (s', (List.replicate n [[], [1], []]).flatten) := by
  induction n with
  | zero => intro s _ _; exact ⟨s, rfl⟩
  | succ n ih =>
    intro s hg hi
    obtain ⟨s1, h1, h2, h3⟩ := busy_round s hg hi
    obtain ⟨s2, h4⟩ := ih s1 h2 h3
    refine ⟨s2, ?_⟩
    rw [busyFor, List.replicate_succ, List.flatten_cons, run_append, h1]
    simp only [Option.bind_some]
    rw [← busyFor, h4, List.replicate_succ, List.flatten_cons]
    rfl

theorem busy_sensible (n : Nat) : Sensible [1, 2] (busyFor n) ∧ turnsIn (busyFor n) = n ∧ Spared 2 (busyFor n) := by
  induction n with
  | zero => exact ⟨trivial, rfl, by intro o ho; cases ho⟩
  | succ n ih =>
    rw [busyFor, List.replicate_succ, List.flatten_cons, ← busyFor]
    refine ⟨⟨by decide, by decide, ih.1⟩, ?_, ?_⟩
    · show turnsIn (busyFor n) + 1 = n + 1
      rw [ih.2.1]
    · intro o ho m hm
      rcases List.mem_append.1 ho with h | h
      · simp only [busy, List.mem_cons, List.not_mem_nil, or_false] at h
        rcases h with rfl | rfl | rfl
        · cases hm
        · cases hm
        · injection hm with hm; omega
      · exact ih.2.2 o h m hm

/-- **C80 is false as stated.** Every destruction makes the next turn begin at the first element again: while
elements come and go between turns and the first always has something to send, the second is never called. -/
theorem never_starved_violation : ¬ NeverStarved := by
  intro h
  obtain ⟨k, hk⟩ := h [.create 1, .create 2] 2 ⟨by decide, by decide, trivial⟩ (by decide)
  obtain ⟨b1, b2, b3⟩ := busy_sensible k
  obtain ⟨s, vs, r1, r2⟩ := run_good [.create 1, .create 2] Loop.empty [] good_empty ⟨by decide, by decide, trivial⟩
  have hst : s.start = s.heap.first ∧ vs = [[], []] := by
    have : (run Loop.empty [.create 1, .create 2]).map (fun r => (r.1.ptr, r.1.invalid, r.2)) = some (none, false, [[], []]) := by decide
    rw [r1, Option.map_some] at this
    injection this with this
    injection this with a1 this
    injection this with a2 a3
    exact ⟨by unfold Loop.start; dsimp only at a1 a2; rw [a1, a2]; rfl, a3⟩
  obtain ⟨s', r3⟩ := busy_rounds k s r2.1 hst.1
  have hr : run Loop.empty ([.create 1, .create 2] ++ busyFor k) = some (s', vs ++ (List.replicate k [[], [1], []]).flatten) := by
    rw [run_append, r1]
    simp only [Option.bind_some]
    rw [r3]; rfl
  have := hk (busyFor k) ⟨by decide, by decide, b1⟩ b3 (by omega) _ hr
  rw [hst.2] at this
  change 2 ∈ ((List.replicate k [[], [1], []]).flatten).flatten at this
  simp only [List.mem_flatten, List.mem_replicate] at this
  obtain ⟨x, ⟨y, ⟨_, rfl⟩, hx⟩, h2⟩ := this
  simp only [List.mem_cons, List.not_mem_nil, or_false] at hx
  rcases hx with rfl | rfl | rfl <;> simp at h2

/-! ## Network interfaces -/

/-- Interfaces made and destroyed. -/
def runIntf : Heap → List Op → Option Heap
  | h, [] => some h
  | h, .create n :: os => (create h n).bind (fun h' => runIntf h' os)
  | h, .destroy n :: os => (destroyIntf h n).bind (fun h' => runIntf h' os)
  | h, .turn _ :: os => runIntf h os

/-- The full claim of C79 for network interfaces. -/
def IntfsExact : Prop :=
  ∀ os, Sensible [] os → ∃ h, runIntf Heap.empty os = some h ∧ h.members = some (living [] os)

/-- **C79 is false of network interfaces.** The destructor does not take the second interface out of the list:
the next walk reads an object that no longer exists. -/
theorem intfs_exact_violation : ¬ IntfsExact := by
  intro h
  obtain ⟨g, h1, h2⟩ := h [.create 1, .create 2, .destroy 2] ⟨by decide, by decide, by decide, trivial⟩
  have : (runIntf Heap.empty [.create 1, .create 2, .destroy 2]).bind Heap.members = none := by decide
  rw [h1, Option.bind_some, h2] at this
  cases this

/-- The second in the list is not destroyed. -/
def NotSecond : List Nat → List Op → Prop
  | _, [] => True
  | l, .create n :: os => NotSecond (l ++ [n]) os
  | l, .destroy n :: os => l[1]? ≠ some n ∧ NotSecond (l.erase n) os
  | l, .turn _ :: os => NotSecond l os

theorem seek_chain (h : Heap) (n b : Nat) (post : List Nat) : ∀ (pre : List Nat) (p : Nat) (x : Option Nat) (fuel : Nat),
    Chain h (some p) (pre ++ b :: n :: post) → n ∉ pre → n ≠ b → (pre ++ b :: n :: post).length ≤ fuel →
    h.seek n fuel (some p) x = some (some n, some b) := by
  intro pre
  induction pre with
  | nil =>
    intro p x fuel hc hn hb hf
    obtain ⟨rfl, h1, h2⟩ := hc
    match fuel, hf with
    | fuel + 2, _ =>
      rw [Heap.seek, if_neg (fun e => hb e.symm), read_alive h p h1]
      dsimp only
      cases hx : h.next p with
      | none => rw [hx] at h2; exact h2.elim
      | some y =>
        rw [hx] at h2
        obtain ⟨rfl, _⟩ := h2
        rw [Heap.seek, if_pos rfl]
    | 0, hf => simp at hf
    | 1, hf => simp at hf
  | cons y pre ih =>
    intro p x fuel hc hn hb hf
    cases fuel with
    | zero => simp at hf
    | succ fuel =>
      obtain ⟨rfl, h1, h2⟩ := hc
      have hpn : p ≠ n := by intro e; subst e; simp at hn
      rw [Heap.seek, if_neg hpn, read_alive h p h1]
      dsimp only
      cases hx : h.next p with
      | none => rw [hx] at h2; have := h2.none_nil; simp at this
      | some z =>
        rw [hx] at h2
        exact ih z (some p) fuel h2 (by simp at hn; exact hn.2) hb (by simp at hf ⊢; omega)

/-- Apart from the second interface, the destructor does what the others do. -/
theorem destroyIntf_eq (h : Heap) (l : List Nat) (n : Nat) (hi : Exact h l) (hn : n ∈ l) (h2 : l[1]? ≠ some n) :
    destroyIntf h n = destroy h n := by
  obtain ⟨hc, hp, hd⟩ := hi
  unfold destroyIntf destroy
  by_cases hf : h.first = some n
  · rw [if_pos hf, if_pos hf]
  · rw [if_neg hf, if_neg hf]
    obtain ⟨pre, post, hl⟩ := List.append_of_mem hn
    have hna : n ∈ h.alive := hp.mem_iff.2 hn
    have hnpre : n ∉ pre := by
      rw [hl, List.nodup_append] at hd
      intro hx
      exact hd.2.2 n hx n (by simp) rfl
    have hlen := hp.length_eq
    match pre, hl, hnpre with
    | [], hl, _ =>
      rw [hl] at hc
      cases hx : h.first with
      | none => rfl
      | some p => rw [hx] at hc hf; obtain ⟨rfl, _⟩ := hc; exact absurd rfl hf
    | [a], hl, _ => rw [hl] at h2; simp at h2
    | a :: a' :: pre, hl, hnpre =>
      cases hx : h.first with
      | none => rfl
      | some p =>
        dsimp only
        rw [hx, hl] at hc
        have hc0 := hc
        obtain ⟨rfl, q1, q2⟩ := hc
        rw [read_alive h p q1]
        dsimp only
        cases hy : h.next p with
        | none => rw [hy] at q2; exact q2.elim
        | some y =>
          rw [hy] at q2
          obtain ⟨k, b, hk⟩ : ∃ k b, a' :: pre = k ++ [b] := by
            rcases List.eq_nil_or_concat (a' :: pre) with e | ⟨k, b, e⟩
            · cases e
            · exact ⟨k, b, by rw [e, List.concat_eq_append]⟩
          have hl2 : a' :: pre ++ n :: post = k ++ b :: n :: post := by rw [hk]; simp
          have hbn : n ≠ b := by intro e; apply hnpre; rw [hk, e]; simp
          have hnk : n ∉ k := by intro hx; apply hnpre; rw [hk]; simp [hx]
          have hnp : n ≠ p := by intro e; apply hnpre; rw [e]; simp
          have hlk : l.length = (k ++ b :: n :: post).length + 1 := by rw [hl, List.cons_append, hl2, List.length_cons]
          have hs := seek_chain h n b post k y (some y) (h.alive.length + 1) (by rw [← hl2]; exact q2) hnk hbn (by omega)
          have hb := before_chain h n b post (p :: k) p (h.alive.length + 1) (by rw [List.cons_append, ← hl2]; exact hc0)
            (by rw [List.mem_cons]; exact fun e => e.elim hnp hnk) hbn (by rw [List.cons_append, List.length_cons]; omega)
          rw [hs, hb]

/-- **C79 for network interfaces**, as long as the second of the list is never destroyed. -/
theorem intfs_exact_partial (os : List Op) (ho : Sensible [] os) (h2 : NotSecond [] os) :
    ∃ h, runIntf Heap.empty os = some h ∧ h.members = some (living [] os) := by
  have key : ∀ (os : List Op) (h : Heap) (l : List Nat), Exact h l → Sensible l os → NotSecond l os →
      ∃ h', runIntf h os = some h' ∧ Exact h' (living l os) := by
    intro os
    induction os with
    | nil => intro h l he _ _; exact ⟨h, rfl, he⟩
    | cons o os ih =>
      intro h l he ho h2
      cases o with
      | create n =>
        obtain ⟨h', c1, c2, _⟩ := create_exact h l n he ho.1
        obtain ⟨h'', r1, r2⟩ := ih h' _ c2 ho.2 h2
        exact ⟨h'', by rw [runIntf, c1]; exact r1, r2⟩
      | destroy n =>
        obtain ⟨h', c1, c2⟩ := destroy_exact h l n he ho.1
        obtain ⟨h'', r1, r2⟩ := ih h' _ c2 ho.2 h2.2
        exact ⟨h'', by rw [runIntf, destroyIntf_eq h l n he ho.1 h2.1, c1]; exact r1, r2⟩
      | turn _ => exact ih h l he ho h2
  obtain ⟨h, r1, r2⟩ := key os Heap.empty [] empty_exact ho h2
  exact ⟨h, r1, members_exact h _ r2⟩

example : Sensible [] [.create 1, .create 2, .create 3, .destroy 3, .destroy 1] ∧ NotSecond [] [.create 1, .create 2, .create 3, .destroy 3, .destroy 1] := by
  simp [Sensible, NotSecond]

end Verif.Registry
