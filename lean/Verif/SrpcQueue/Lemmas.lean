import Verif.SrpcQueue.Spec

namespace Verif.SrpcQueue

variable {α : Type}

/-- Addresses held in the slots. -/
def addrs (slots : List (Option Nat)) : List Nat := slots.filterMap id

/-- Representation invariant: the first `count` slots point to distinct live cells holding `l`; the
remaining slots are null or spare live cells; a cell is live exactly if some slot points to it. -/
structure Rep (cfg : Cfg) (q : Queue α) (l : List (Pkt α)) : Prop where
  ids : ∃ (ids : List Nat) (rest : List (Option Nat)),
    q.slots = ids.map some ++ rest ∧ ids.map q.heap = l.map some
  count : q.count = l.length
  len : q.slots.length = cfg.cap
  nodup : (addrs q.slots).Nodup
  live : ∀ a, (q.heap a).isSome = true ↔ a ∈ addrs q.slots
  fresh : ∀ a, (q.heap a).isSome = true → a < q.fresh
  alloc : q.alloc ≤ cfg.minAlloc + l.length
  le : l.length ≤ cfg.cap

theorem addrs_ids (ids : List Nat) : addrs (ids.map some) = ids := by
  induction ids with
  | nil => rfl
  | cons a ids ih => simpa [addrs] using ih

theorem addrs_append (a b : List (Option Nat)) : addrs (a ++ b) = addrs a ++ addrs b := by
  simp [addrs]

theorem addrs_none (n : Nat) : addrs (List.replicate n none) = [] := by
  simp [addrs]

theorem init_rep (cfg : Cfg) : Rep cfg (Queue.init α cfg) [] := by
  refine ⟨⟨[], List.replicate cfg.cap none, by simp [Queue.init], by simp⟩, rfl, by simp [Queue.init],
    by simp [Queue.init, addrs_none], ?_, ?_, by simp [Queue.init], by simp⟩
  · intro a
    simp [Queue.init, addrs_none]
  · intro a h; simp [Queue.init] at h

theorem shiftLoop_eq (item : Option Nat) (ys : List (Option Nat)) : ∀ (xs zs : List (Option Nat)) (s : Option Nat),
    (shiftLoop (xs ++ s :: ys ++ zs) xs.length ys.length).set (xs.length + ys.length) item =
      xs ++ ys ++ item :: zs := by
  induction ys with
  | nil => intro xs zs s; simp [shiftLoop]
  | cons y ys ih =>
    intro xs zs s
    have h1 : (xs ++ s :: (y :: ys) ++ zs).getD (xs.length + 1) none = y := by
      simp [List.getD_eq_getElem?_getD, List.getElem?_append_right]
    have h2 : (xs ++ s :: (y :: ys) ++ zs).set xs.length y = (xs ++ [y]) ++ y :: ys ++ zs := by
      simp
    simp only [List.length_cons, shiftLoop, h1, h2]
    have := ih (xs ++ [y]) zs y
    simp only [List.length_append, List.length_cons, List.length_nil, Nat.zero_add] at this
    rw [show xs.length + (ys.length + 1) = xs.length + 1 + ys.length by omega, this]
    simp

/-- The search stops at the first match. -/
theorem findFrom_eq (q : Queue α) (rr : Nat) (ids : List Nat) : ∀ (pre : List (Option Nat)) (rest : List (Option Nat))
    (l : List (Pkt α)), q.slots = pre ++ ids.map some ++ rest → ids.map q.heap = l.map some →
    (findFrom q rr l.length pre.length = some none ∧ ∀ x ∈ l, rr ≠ 0 ∧ x.rrId ≠ rr) ∨
    ∃ xs p ys ixs i iys, l = xs ++ p :: ys ∧ ids = ixs ++ i :: iys ∧ xs.length = ixs.length ∧
      (∀ x ∈ xs, rr ≠ 0 ∧ x.rrId ≠ rr) ∧ (rr = 0 ∨ p.rrId = rr) ∧ q.heap i = some p ∧
      findFrom q rr l.length pre.length = some (some (pre.length + xs.length, p)) := by
  induction ids with
  | nil =>
    intro pre rest l hs hl
    have : l = [] := by simpa using hl.symm
    subst this
    exact .inl ⟨rfl, by simp⟩
  | cons a ids ih =>
    intro pre rest l hs hl
    cases l with
    | nil => simp at hl
    | cons p l =>
      simp only [List.map_cons, List.cons.injEq] at hl
      have hget : q.slots[pre.length]? = some (some a) := by
        rw [hs]; simp
      have hf : findFrom q rr (p :: l).length pre.length =
          if rr = 0 ∨ p.rrId = rr then some (some (pre.length, p))
          else findFrom q rr l.length (pre.length + 1) := by
        simp only [List.length_cons, findFrom, hget, hl.1]
      rw [hf]
      by_cases hm : rr = 0 ∨ p.rrId = rr
      · right
        exact ⟨[], p, l, [], a, ids, rfl, rfl, rfl, by simp, hm, hl.1, by simp [hm]⟩
      · simp only [hm, if_false]
        have hm' : rr ≠ 0 ∧ p.rrId ≠ rr := by omega
        have := ih (pre ++ [some a]) rest l (by rw [hs]; simp) hl.2
        simp only [List.length_append, List.length_cons, List.length_nil, Nat.zero_add] at this
        rcases this with ⟨h1, h2⟩ | ⟨xs, p', ys, ixs, i, iys, h1, h2, h3, h4, h5, h6, h7⟩
        · left
          refine ⟨h1, ?_⟩
          intro x hx
          rcases List.mem_cons.mp hx with rfl | hx
          · exact hm'
          · exact h2 x hx
        · right
          refine ⟨p :: xs, p', ys, a :: ixs, i, iys, by simp [h1], by simp [h2], by simp [h3], ?_,
            h5, h6, ?_⟩
          · intro x hx
            rcases List.mem_cons.mp hx with rfl | hx
            · exact hm'
            · exact h4 x hx
          · rw [h7]; simp; omega

theorem map_write_ne (h : Nat → Option (Pkt α)) (a : Nat) (v : Option (Pkt α)) (ids : List Nat)
    (hn : a ∉ ids) : ids.map (write h a v) = ids.map h := by
  apply List.map_congr_left
  intro b hb
  simp only [write]
  split
  · subst_vars; exact absurd hb hn
  · rfl

theorem push_rep (cfg : Cfg) (hc : cfg.minAlloc + cfg.cap < 256) (oom : Bool) (q : Queue α) (p : Pkt α) (l : List (Pkt α))
    (hr : Rep cfg q l) :
    ∃ ok q' l', push cfg oom q p = some (ok, q') ∧ Rep cfg q' l' ∧
      SpecStep cfg.cap l (.push oom p) (.pushed ok) l' := by
  obtain ⟨ids, rest, hs, hh⟩ := hr.ids
  have hlen : ids.length = l.length := by simpa using congrArg List.length hh
  unfold push
  by_cases hfull : q.count ≥ cfg.cap
  · simp only [hfull, if_true]
    exact ⟨false, q, l, rfl, hr, .full (by rw [← hr.count]; exact hfull)⟩
  · simp only [hfull, if_false]
    have hlt : l.length < cfg.cap := by rw [← hr.count]; omega
    have hsl := hr.len
    rw [hs, List.length_append, List.length_map, hlen] at hsl
    have hal := hr.alloc
    cases rest with
    | nil => simp at hsl; omega
    | cons s rest =>
      have hget : q.slots[q.count]? = some s := by
        rw [hs, hr.count, ← hlen]; simp
      have hmod1 : (q.count + 1) % 256 = l.length + 1 := by rw [hr.count]; omega
      have hmod2 : (q.alloc + 1) % 256 = q.alloc + 1 := by omega
      have hadr : addrs q.slots = ids ++ addrs (s :: rest) := by rw [hs, addrs_append, addrs_ids]
      have hnd := hr.nodup
      have hlive := hr.live
      rw [hadr] at hnd hlive
      cases s with
      | none =>
        simp only [hget]
        cases oom with
        | true => exact ⟨false, q, l, rfl, hr, .noMem hlt⟩
        | false =>
          have hfr : q.fresh ∉ ids ++ addrs (none :: rest) := by
            intro hm
            have := hr.fresh _ ((hlive _).mpr hm)
            omega
          have hset : q.slots.set q.count (some q.fresh) = (ids ++ [q.fresh]).map some ++ rest := by
            rw [hs, hr.count, ← hlen]
            have : (ids.map some).length = ids.length := by simp
            rw [← this, List.set_append_right _ _ (Nat.le_refl _)]
            simp
          have hadr' : addrs (none :: rest) = addrs rest := by simp [addrs]
          rw [hadr'] at hfr hnd hlive
          refine ⟨true, _, l ++ [p], rfl, ?_, .accept hlt⟩
          refine ⟨⟨ids ++ [q.fresh], rest, hset, ?_⟩, ?_, ?_, ?_, ?_, ?_, ?_, ?_⟩
          · simp only [List.map_append, List.map_cons, List.map_nil]
            rw [map_write_ne _ _ _ _ (fun hm => hfr (by simp [hm])), hh]
            simp [write]
          · simp only [hmod1, List.length_append, List.length_cons, List.length_nil]
          · simp only [hset]; simp at hsl ⊢; omega
          · simp only [hset, addrs_append, addrs_ids]
            simp only [List.nodup_append, List.append_assoc, List.mem_append] at hnd hfr ⊢
            simp
            simp at hfr
            refine ⟨hnd.1, ⟨hnd.2.1, fun b hb e => hfr.2 (e ▸ hb)⟩, ?_⟩
            intro a ha
            exact ⟨fun e => hfr.1 (e ▸ ha), fun b hb => hnd.2.2 a ha b hb⟩
          · intro a
            simp only [hset, addrs_append, addrs_ids, write]
            by_cases ha : a = q.fresh
            · simp [ha]
            · have := hlive a
              simp only [ha, if_false, this]
              simp [ha]
          · intro a
            simp only [write]
            by_cases ha : a = q.fresh
            · simp [ha]
            · simp only [ha, if_false]
              intro h
              have := hr.fresh a h
              omega
          · simp only [hmod2, List.length_append, List.length_cons, List.length_nil]; omega
          · simp; omega
      | some a =>
        have ham : a ∈ ids ++ addrs (some a :: rest) := by simp [addrs]
        obtain ⟨old, hold⟩ := Option.isSome_iff_exists.mp ((hlive a).mpr ham)
        simp only [hget, hold]
        have hadr' : addrs (some a :: rest) = a :: addrs rest := by simp [addrs]
        rw [hadr'] at hnd hlive
        have hani : a ∉ ids := by
          intro hm
          exact (List.nodup_append.mp hnd).2.2 a hm a (by simp) rfl
        refine ⟨true, _, l ++ [p], rfl, ?_, .accept hlt⟩
        refine ⟨⟨ids ++ [a], rest, by simp [hs], ?_⟩, ?_, hr.len, hr.nodup, ?_, ?_, ?_, ?_⟩
        · simp only [List.map_append, List.map_cons, List.map_nil]
          rw [map_write_ne _ _ _ _ hani, hh]
          simp [write]
        · simp only [hmod1, List.length_append, List.length_cons, List.length_nil]
        · intro b
          simp only [write]
          by_cases hb : b = a
          · subst hb; simp [hadr, hadr']
          · simp only [hb, if_false]; exact hr.live b
        · intro b
          simp only [write]
          by_cases hb : b = a
          · subst hb
            intro _
            exact hr.fresh b (by rw [hold]; rfl)
          · simp only [hb, if_false]; exact hr.fresh b
        · simp only [hmod2, List.length_append, List.length_cons, List.length_nil]; omega
        · simp; omega

theorem pop_rep (cfg : Cfg) (q : Queue α) (rr : Nat) (l : List (Pkt α)) (hr : Rep cfg q l) :
    ∃ o q' l', pop cfg q rr = some (o, q') ∧ Rep cfg q' l' ∧
      SpecStep cfg.cap l (.pop rr) (.popped o) l' := by
  obtain ⟨ids, rest, hs, hh⟩ := hr.ids
  have hf := findFrom_eq q rr ids [] rest l (by simpa using hs) hh
  unfold pop
  rw [hr.count]
  rcases hf with ⟨h1, h2⟩ | ⟨xs, p, ys, ixs, i, iys, rfl, rfl, hxl, h4, h5, h6, h7⟩
  · simp only [List.length_nil] at h1
    simp only [h1]
    exact ⟨none, q, l, rfl, hr, .miss h2⟩
  · simp only [List.length_nil, Nat.zero_add] at h7
    simp only [h7]
    have hyl : ys.length = iys.length := by
      have := congrArg List.length hh
      simp at this; omega
    have hsl : q.slots = ixs.map some ++ some i :: iys.map some ++ rest := by rw [hs]; simp
    have hget : q.slots.getD xs.length none = some i := by
      rw [hsl, hxl]; simp [List.getD_eq_getElem?_getD]
    have hshift : ∀ item, (shiftLoop (q.slots.set xs.length item) xs.length
        ((xs ++ p :: ys).length - 1 - xs.length)).set ((xs ++ p :: ys).length - 1) item =
        ixs.map some ++ iys.map some ++ item :: rest := by
      intro item
      have e1 : (xs ++ p :: ys).length - 1 - xs.length = (iys.map some).length := by simp; omega
      have e2 : (xs ++ p :: ys).length - 1 = (ixs.map some).length + (iys.map some).length := by
        simp; omega
      have e3 : xs.length = (ixs.map some).length := by simp [hxl]
      have e4 : q.slots.set xs.length item = ixs.map some ++ item :: iys.map some ++ rest := by
        rw [hsl, e3]; simp
      rw [e4, e1, e2, e3, shiftLoop_eq]
    simp only [hget, hshift]
    have hnd := hr.nodup
    have hlive := hr.live
    have hadr : addrs q.slots = ixs ++ i :: (iys ++ addrs rest) := by
      rw [hs, addrs_append, addrs_ids]; simp
    rw [hadr] at hnd hlive
    have hni : i ∉ ixs ∧ i ∉ iys ∧ i ∉ addrs rest := by
      have := List.nodup_append.mp hnd
      refine ⟨fun hm => this.2.2 i hm i (by simp) rfl, ?_, ?_⟩
      · intro hm
        have := (List.nodup_cons.mp this.2.1).1
        exact this (by simp [hm])
      · intro hm
        have := (List.nodup_cons.mp this.2.1).1
        exact this (by simp [hm])
    have hmap : ixs.map q.heap = xs.map some ∧ iys.map q.heap = ys.map some := by
      have h0 := hh
      simp only [List.map_append, List.map_cons] at h0
      have h1 := List.append_inj h0 (by simp [hxl])
      simp only [List.cons.injEq] at h1
      exact ⟨h1.1, h1.2.2⟩
    have hcap := hr.le
    have hal := hr.alloc
    simp only [List.length_append, List.length_cons] at hcap hal
    have hslen := hr.len
    rw [hsl] at hslen
    simp at hslen
    have hperm : (ixs ++ i :: (iys ++ addrs rest)).Perm ((ixs ++ iys) ++ i :: addrs rest) := by
      rw [List.append_assoc]
      apply List.Perm.append_left
      exact (List.perm_middle).symm
    by_cases hfree : q.alloc > cfg.minAlloc
    · simp only [hfree, if_true]
      refine ⟨some p, _, xs ++ ys, rfl, ?_, .hit h4 h5⟩
      have hadr' : addrs (ixs.map some ++ iys.map some ++ none :: rest) = (ixs ++ iys) ++ addrs rest := by
        rw [addrs_append, addrs_append, addrs_ids, addrs_ids]; simp [addrs]
      have hnd' := hperm.nodup_iff.mp hnd
      refine ⟨⟨ixs ++ iys, none :: rest, by simp, ?_⟩, ?_, ?_, ?_, ?_, ?_, ?_, ?_⟩
      · simp only []
        rw [map_write_ne _ _ _ _ (by simp [hni.1, hni.2.1])]
        simp [hmap]
      · simp
      · simp; omega
      · simp only [hadr']
        have := List.nodup_append.mp hnd'
        refine List.nodup_append.mpr ⟨this.1, (List.nodup_cons.mp this.2.1).2, ?_⟩
        intro a ha b hb
        exact this.2.2 a ha b (by simp [hb])
      · intro a
        simp only [hadr', write]
        by_cases ha : a = i
        · subst ha; simp [hni]
        · have := hlive a
          simp only [ha, if_false, this]
          simp [ha]
      · intro a
        simp only [write]
        by_cases ha : a = i
        · simp [ha]
        · simp only [ha, if_false]; exact hr.fresh a
      · simp; omega
      · simp; omega
    · simp only [hfree, if_false]
      refine ⟨some p, _, xs ++ ys, rfl, ?_, .hit h4 h5⟩
      have hadr' : addrs (ixs.map some ++ iys.map some ++ some i :: rest) =
          (ixs ++ iys) ++ i :: addrs rest := by
        rw [addrs_append, addrs_append, addrs_ids, addrs_ids]; simp [addrs]
      refine ⟨⟨ixs ++ iys, some i :: rest, by simp, ?_⟩, ?_, ?_, ?_, ?_, hr.fresh, ?_, ?_⟩
      · simp [hmap]
      · simp
      · simp; omega
      · simp only [hadr']; exact hperm.nodup_iff.mp hnd
      · intro a
        simp only [hadr']
        rw [hlive a]
        exact hperm.mem_iff
      · simp; omega
      · simp; omega

end Verif.SrpcQueue
