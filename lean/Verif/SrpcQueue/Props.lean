import Verif.SrpcQueue.Lemmas

/-! # C06: the RPC packet queues -/

namespace Verif.SrpcQueue

variable {α : Type}

/-- **C06.** Any history of pushes and pops on a fresh queue: no undefined behaviour (null or freed
cell touched, index outside the array), and the results are those of a bounded list queue: a push is
accepted unless the queue is full or memory is exhausted, and a refused push changes nothing; a pop
returns the oldest (matching) packet and keeps the others in order. In addition no cell is leaked or
referenced twice: at the end the live cells are exactly those the slots point to, each once. -/
theorem queue_is_fifo (cfg : Cfg) (hc : cfg.minAlloc + cfg.cap < 256) (ops : List (Op α)) :
    ∃ rs q l, run cfg (Queue.init α cfg) ops = some (rs, q) ∧ SpecRun cfg.cap [] ops rs l ∧
      q.count = l.length ∧ l.length ≤ cfg.cap ∧ (q.slots.filterMap id).Nodup ∧
      ∀ a, (q.heap a).isSome = true ↔ some a ∈ q.slots := by
  have gen : ∀ (q : Queue α) (l : List (Pkt α)), Rep cfg q l →
      ∃ rs q' l', run cfg q ops = some (rs, q') ∧ SpecRun cfg.cap l ops rs l' ∧ Rep cfg q' l' := by
    induction ops with
    | nil => intro q l h; exact ⟨[], q, l, rfl, .nil, h⟩
    | cons op ops ih =>
      intro q l h
      have hstep : ∃ r q' l', step cfg q op = some (r, q') ∧ Rep cfg q' l' ∧ SpecStep cfg.cap l op r l' := by
        cases op with
        | push oom p =>
          obtain ⟨ok, q', l', h1, h2, h3⟩ := push_rep cfg hc oom q p l h
          exact ⟨.pushed ok, q', l', by simp [step, h1], h2, h3⟩
        | pop rr =>
          obtain ⟨o, q', l', h1, h2, h3⟩ := pop_rep cfg q rr l h
          exact ⟨.popped o, q', l', by simp [step, h1], h2, h3⟩
      obtain ⟨r, q', l', h1, h2, h3⟩ := hstep
      obtain ⟨rs, q'', l'', h4, h5, h6⟩ := ih q' l' h2
      exact ⟨r :: rs, q'', l'', by simp [run, h1, h4], .cons h3 h5, h6⟩
  obtain ⟨rs, q, l, h1, h2, h3⟩ := gen _ _ (init_rep cfg)
  refine ⟨rs, q, l, h1, h2, h3.count, h3.le, h3.nodup, ?_⟩
  intro a
  rw [h3.live a]
  simp [addrs]

/-- The three build configurations satisfy the hypothesis. -/
example : cfgEsp.minAlloc + cfgEsp.cap < 256 ∧ cfgAvr.minAlloc + cfgAvr.cap < 256 ∧
    cfgOther.minAlloc + cfgOther.cap < 256 := by decide

/-- The specification determines the results when memory is available: first in, first out, and by
key. -/
example : (run cfgEsp (Queue.init Nat cfgEsp)
    [.push false ⟨5, 50⟩, .push false ⟨6, 60⟩, .push false ⟨7, 70⟩, .pop 6, .pop 9, .push true ⟨8, 80⟩,
     .pop 0, .pop 0, .pop 0]).map (fun x => x.1.map fun
      | .pushed ok => (ok, none)
      | .popped p => (p.isSome, p.map (·.rrId))) =
    some [(true, none), (true, none), (false, none), (true, some 6), (false, none), (true, none),
      (true, some 5), (true, some 8), (false, none)] := by decide +kernel

/-- Spec determinism for pops: the list queue semantics leave no freedom in what is returned. -/
theorem spec_pop_unique {cap : Nat} {l l1 l2 : List (Pkt α)} {rr : Nat} {r1 r2 : Res α}
    (h1 : SpecStep cap l (.pop rr) r1 l1) (h2 : SpecStep cap l (.pop rr) r2 l2) :
    r1 = r2 ∧ l1 = l2 := by
  have nm : ∀ (x : Pkt α), (rr ≠ 0 ∧ x.rrId ≠ rr) → (rr = 0 ∨ x.rrId = rr) → False := by
    intro x h h'; omega
  cases h1 with
  | miss m1 =>
    cases h2 with
    | miss _ => exact ⟨rfl, rfl⟩
    | hit a b => exact (nm _ (m1 _ (by simp)) b).elim
  | @hit xs p ys _ a b =>
    generalize hl : xs ++ p :: ys = l at h2
    cases h2 with
    | miss m2 => subst hl; exact (nm _ (m2 _ (by simp)) b).elim
    | @hit xs' p' ys' _ a' b' =>
      rcases List.append_eq_append_iff.mp hl with ⟨t, e1, e2⟩ | ⟨t, e1, e2⟩
      · cases t with
        | nil => simp at e1 e2; simp [e1, e2]
        | cons y t =>
          simp at e2
          exact (nm p (a' p (by rw [e1, e2.1]; simp)) b).elim
      · cases t with
        | nil => simp at e1 e2; simp [e1, e2]
        | cons y t =>
          simp at e2
          exact (nm p' (a p' (by rw [e1, e2.1]; simp)) b').elim

example : SpecStep 10 [⟨3, ()⟩, ⟨4, ()⟩] (.pop 4) (.popped (some ⟨4, ()⟩)) [⟨3, ()⟩] :=
  SpecStep.hit (xs := [⟨3, ()⟩]) (ys := []) (by simp) (by simp)

end Verif.SrpcQueue
