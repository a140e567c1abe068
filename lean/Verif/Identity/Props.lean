import Verif.Identity.Model
import Mathlib.Data.Finset.Card
import Mathlib.Data.Finset.Range
/-!
# Identity of the device: what stays and what does not
-/
namespace Verif.Identity

/-- The server sees one device. -/
def OneIdentity (used : List Pair) : Prop := ∀ a ∈ used, ∀ b ∈ used, a = b

/-- The full claim: whatever happens, the device runs with one identity only. -/
def KeepsIdentity (k : Kind) : Prop := ∀ ops, OneIdentity (run k ops Dev.init).used

/-- Every write of the event is accepted by the medium. -/
def Accepted : Op → Prop
  | .start _ ok _ => ∀ n, ok n = true
  | .reset ok _ => ∀ n, ok n = true
  | .save ok => ok = true

/-- A factory reset is not interrupted. -/
def Whole : Op → Prop
  | .reset _ cut => cut = none
  | _ => True

/-! ## Lemmas -/

/-- The identity is on the medium. -/
def Stored (m : Mem) (i : Pair) : Prop := m.dur = ⟨some i.1, some i.2⟩

/-- Whatever was used is on the medium; while running, memory and registration agree with it. -/
structure Inv (d : Dev) : Prop where
  stored : ∀ i ∈ d.used, Stored d.m i
  ran : d.running = true → d.reg ∈ d.used ∧ d.m.live = d.m.dur

theorem stored_one {d : Dev} (h : ∀ i ∈ d.used, Stored d.m i) : OneIdentity d.used := by
  intro a ha b hb
  have e := (h a ha).symm.trans (h b hb)
  injection e with e1 e2
  injection e1 with e1; injection e2 with e2
  exact Prod.ext e1 e2

theorem inv_init : Inv Dev.init := ⟨by simp [Dev.init], by simp [Dev.init]⟩

/-- The checks keep the invariant when the identity read is on the medium, or is not accepted. -/
theorem inv_checked {d : Dev} (hs : ∀ i ∈ d.used, Stored d.m i) (hr : d.reg.1 ≠ 0 → d.reg.2 ≠ 0 → Stored d.m d.reg ∧ d.m.live = d.m.dur) :
    Inv (checked d) := by
  unfold checked
  by_cases h : d.reg.1 = 0 ∨ d.reg.2 = 0
  · rw [if_pos h]
    exact ⟨hs, by simp⟩
  · rw [if_neg h]
    have h1 := hr (fun e => h (Or.inl e)) (fun e => h (Or.inr e))
    refine ⟨?_, fun _ => ⟨by simp, h1.2⟩⟩
    intro i hi
    rcases List.mem_append.1 hi with hi | hi
    · exact hs i hi
    · rw [List.mem_singleton.1 hi]
      exact h1.1

theorem complete_of_used {d : Dev} (h : ∀ i ∈ d.used, Stored d.m i) (hc : (d.m.dur.guid.isSome && d.m.dur.auth.isSome) = false) : d.used = [] := by
  rcases hu : d.used with _ | ⟨i, l⟩
  · rfl
  · have := h i (by rw [hu]; simp)
    unfold Stored at this
    rw [this] at hc
    simp at hc

theorem loaded_complete {l : Kept} (h : (l.guid.isSome && l.auth.isSome) = true) (o : Pair) :
    l = ⟨some (loaded l o).1, some (loaded l o).2⟩ := by
  obtain ⟨g, a⟩ := l
  cases g <;> cases a <;> simp_all [loaded]

/-- A start keeps the invariant if generating leaves what it read on the medium. -/
theorem inv_start {k : Kind} {r : Pair} {ok : Nat → Bool} {cut : Option Nat} {d : Dev} (h : Inv d)
    (hg : (d.m.dur.guid.isSome && d.m.dur.auth.isSome) = false → cut = none →
      ∀ m, m = writes k ok 0 (genWrites k r) ⟨d.m.dur, d.m.dur⟩ →
      ∀ reg, reg = (if genResult k r ok then loaded m.live (loaded d.m.dur (0, 0)) else loaded d.m.dur (0, 0)) →
        reg.1 ≠ 0 → reg.2 ≠ 0 → Stored m reg ∧ m.live = m.dur) :
    Inv (start k r ok cut d) := by
  unfold start
  dsimp only
  cases hc : (d.m.dur.guid.isSome && d.m.dur.auth.isSome)
  · have hu := complete_of_used h.stored hc
    rw [if_neg (by simp)]
    cases cut with
    | some c => exact ⟨by simp [hu], by simp⟩
    | none =>
      simp only [Option.isSome_none, Bool.false_eq_true, if_false, upTo]
      refine inv_checked (by simp [hu]) ?_
      exact hg hc rfl _ rfl _ rfl
  · rw [if_pos rfl]
    refine inv_checked h.stored ?_
    intro _ _
    exact ⟨loaded_complete hc _, rfl⟩

theorem inv_save {k : Kind} {ok : Bool} {d : Dev} (h : Inv d) : Inv (save k ok d) := by
  unfold save
  cases hr : d.running
  · rw [if_neg (by simp)]; exact h
  · rw [if_pos rfl]
    have hl := (h.ran hr).2
    have key : prim k ok d.m .commit = d.m := by
      obtain ⟨⟨live, dur⟩, reg, running, used⟩ := d
      dsimp only at hl
      subst hl
      cases k <;> simp [prim, primNvs, primImage, primLinux]
    rw [key]
    exact ⟨h.stored, fun _ => h.ran hr⟩

/-- A whole reset whose writes are accepted leaves the medium's identity as it was. -/
theorem inv_reset {k : Kind} {ok : Nat → Bool} {d : Dev} (h : Inv d) (ha : ∀ n, ok n = true) : Inv (reset k ok none d) := by
  unfold reset
  cases hr : d.running
  · rw [if_neg (by simp)]; exact h
  · rw [if_pos rfl]
    have hl := h.ran hr
    have hst := h.stored _ hl.1
    have key : writes k ok 0 (upTo none (resetWrites d.reg)) d.m = ⟨d.m.dur, d.m.dur⟩ := by
      obtain ⟨⟨live, dur⟩, reg, running, used⟩ := d
      dsimp only [Stored] at hl hst ⊢
      rw [hl.2, hst]
      cases k <;> simp [upTo, resetWrites, writes, prim, primNvs, primImage, primLinux, ha, Kept.none]
    rw [key]
    exact ⟨h.stored, fun _ => ⟨hl.1, rfl⟩⟩

/-- On Linux a factory reset does not touch the identity at all. -/
theorem inv_reset_linux {ok : Nat → Bool} {cut : Option Nat} {d : Dev} (h : Inv d) : Inv (reset .linux ok cut d) := by
  unfold reset
  cases hr : d.running
  · rw [if_neg (by simp)]; exact h
  · rw [if_pos rfl]
    have hl := h.ran hr
    have hst := h.stored _ hl.1
    have keyd : ∀ ps, (∀ p ∈ ps, p = .clear ∨ p = .setGuid d.reg.1 ∨ p = .setAuth d.reg.2 ∨ p = .commit) →
        ∀ n m, m = d.m → writes .linux ok n ps ⟨m.dur, m.dur⟩ = ⟨d.m.dur, d.m.dur⟩ := by
      intro ps
      induction ps with
      | nil => intro _ n m hm; rw [hm]; rfl
      | cons p ps ih =>
        intro hp n m hm
        have h1 : prim .linux (ok n) ⟨m.dur, m.dur⟩ p = ⟨m.dur, m.dur⟩ := by
          have hmd : m.dur = ⟨some d.reg.1, some d.reg.2⟩ := by rw [hm]; exact hst
          rw [hmd]
          rcases hp p (by simp) with e | e | e | e <;> rw [e] <;> rfl
        show writes .linux ok (n + 1) ps (prim .linux (ok n) ⟨m.dur, m.dur⟩ p) = _
        rw [h1]
        exact ih (fun q hq => hp q (by simp [hq])) _ _ hm
    have hm : d.m = ⟨d.m.dur, d.m.dur⟩ := by
      have := hl.2
      obtain ⟨⟨live, dur⟩, reg, running, used⟩ := d
      dsimp only at this ⊢
      rw [this]
    have hin : ∀ p ∈ upTo cut (resetWrites d.reg), p = .clear ∨ p = .setGuid d.reg.1 ∨ p = .setAuth d.reg.2 ∨ p = .commit := by
      intro p hp
      have hp' : p ∈ resetWrites d.reg := by
        cases cut with
        | none => exact hp
        | some c => exact List.mem_of_mem_take hp
      simpa [resetWrites] using hp'
    have key := keyd _ hin 0 d.m rfl
    rw [← hm] at key
    rw [key]
    refine ⟨h.stored, fun _ => ⟨hl.1, ?_⟩⟩
    exact hl.2

theorem inv_run {k : Kind} {P : Op → Prop} (hstep : ∀ d op, P op → Inv d → Inv (step k d op)) (ops : List Op) (hp : ∀ op ∈ ops, P op) (d : Dev)
    (h : Inv d) : Inv (run k ops d) := by
  induction ops generalizing d with
  | nil => exact h
  | cons op ops ih => exact ih (fun o ho => hp o (by simp [ho])) _ (hstep d op (hp op (by simp)) h)

/-! ## One identity -/

theorem gen_linux {r : Pair} {ok : Nat → Bool} {l : Kept} (hc : (l.guid.isSome && l.auth.isSome) = false) (m : Mem)
    (hm : m = writes .linux ok 0 (genWrites .linux r) ⟨l, l⟩) (reg : Pair)
    (hreg : reg = (if genResult .linux r ok then loaded m.live (loaded l (0, 0)) else loaded l (0, 0))) (h1 : reg.1 ≠ 0) (h2 : reg.2 ≠ 0) :
    Stored m reg ∧ m.live = m.dur := by
  cases hres : genResult .linux r ok
  · rw [hres, if_neg (by simp)] at hreg
    obtain ⟨g, a⟩ := l
    cases g <;> cases a <;> simp_all [loaded]
  · rw [hres, if_pos rfl] at hreg
    simp only [genResult, Bool.and_eq_true, Bool.not_eq_true', decide_eq_false_iff_not] at hres
    obtain ⟨hz, ⟨h2', h3⟩, h4⟩ := hres
    have hm' : m = ⟨⟨some r.1, some r.2⟩, ⟨some r.1, some r.2⟩⟩ := by
      rw [hm]
      simp [genWrites, hz, writes, prim, primLinux, h2', h3, h4, Kept.none]
    subst hm'
    rw [hreg]
    exact ⟨rfl, rfl⟩

/-- Linux: one identity whatever is refused and wherever the power fails, factory resets included. -/
theorem linux_identity_kept : KeepsIdentity .linux := by
  intro ops
  refine stored_one (inv_run (P := fun _ => True) ?_ ops (fun _ _ => trivial) _ inv_init).stored
  intro d op _ h
  cases op with
  | start r ok cut => exact inv_start h (fun hc _ m hm reg hreg => gen_linux hc m hm reg hreg)
  | reset ok cut => exact inv_reset_linux h
  | save ok => exact inv_save h

theorem gen_nvs {r : Pair} {ok : Nat → Bool} {l : Kept} (m : Mem)
    (hm : m = writes .nvs ok 0 (genWrites .nvs r) ⟨l, l⟩) (reg : Pair)
    (hreg : reg = (if genResult .nvs r ok then loaded m.live (loaded l (0, 0)) else loaded l (0, 0))) (h1 : reg.1 ≠ 0) (h2 : reg.2 ≠ 0) :
    Stored m reg ∧ m.live = m.dur := by
  obtain ⟨g, a⟩ := l
  obtain ⟨rg, ra⟩ := r
  cases g <;> cases a <;> cases h0 : ok 0 <;> cases h0' : ok 1 <;>
    simp_all [genWrites, genResult, writes, prim, primNvs, loaded, Stored]

/-- NVS: one identity although writes at start may be refused, as long as factory resets run to the end and their writes are accepted. -/
theorem nvs_identity_kept_partial (ops : List Op) (h : ∀ op ∈ ops, ∀ ok cut, op = .reset ok cut → (∀ n, ok n = true) ∧ cut = none) :
    OneIdentity (run .nvs ops Dev.init).used := by
  refine stored_one (inv_run (P := fun op => ∀ ok cut, op = .reset ok cut → (∀ n, ok n = true) ∧ cut = none) ?_ ops h _ inv_init).stored
  intro d op hp hi
  cases op with
  | start r ok cut => exact inv_start hi (fun _ _ m hm reg hreg => gen_nvs m hm reg hreg)
  | reset ok cut =>
    obtain ⟨ha, hc⟩ := hp ok cut rfl
    subst hc
    exact inv_reset hi ha
  | save ok => exact inv_save hi

theorem gen_image {r : Pair} {ok : Nat → Bool} (ha : ∀ n, ok n = true) {l : Kept} (m : Mem)
    (hm : m = writes .image ok 0 (genWrites .image r) ⟨l, l⟩) (reg : Pair)
    (hreg : reg = (if genResult .image r ok then loaded m.live (loaded l (0, 0)) else loaded l (0, 0))) :
    Stored m reg ∧ m.live = m.dur := by
  obtain ⟨rg, ra⟩ := r
  have hm' : m = ⟨⟨some rg, some ra⟩, ⟨some rg, some ra⟩⟩ := by
    rw [hm]
    simp [genWrites, writes, prim, primImage, ha]
  subst hm'
  rw [hreg]
  exact ⟨rfl, rfl⟩

/-- Every store: if writes are accepted and no factory reset is interrupted, the device runs with one identity only, wherever else the power fails. -/
theorem identity_kept_partial (k : Kind) (ops : List Op) (ha : ∀ op ∈ ops, Accepted op) (hw : ∀ op ∈ ops, Whole op) :
    OneIdentity (run k ops Dev.init).used := by
  refine stored_one (inv_run (P := fun op => Accepted op ∧ Whole op) ?_ ops (fun op ho => ⟨ha op ho, hw op ho⟩) _ inv_init).stored
  intro d op hp hi
  cases op with
  | start r ok cut =>
    cases k with
    | nvs => exact inv_start hi (fun _ _ m hm reg hreg => gen_nvs m hm reg hreg)
    | image => exact inv_start hi (fun _ _ m hm reg hreg _ _ => gen_image hp.1 m hm reg hreg)
    | linux => exact inv_start hi (fun hc _ m hm reg hreg => gen_linux hc m hm reg hreg)
  | reset ok cut =>
    have hc : cut = none := hp.2
    subst hc
    exact inv_reset hi hp.1
  | save ok => exact inv_save hi

/-- A history with cuts while generating, a reset and a save, after which one identity was used twice. -/
example : (run .nvs [.start (7, 8) (fun _ => true) (some 1), .start (5, 6) (fun _ => true) none, .reset (fun _ => true) none, .save true,
    .start (1, 2) (fun _ => true) none] Dev.init).used = [(5, 6), (5, 6)] := by decide
example : (run .linux [.start (7, 8) (fun _ => true) (some 4), .start (5, 6) (fun n => n != 3) none, .start (3, 4) (fun _ => true) none,
    .reset (fun _ => true) (some 1), .start (1, 2) (fun _ => true) none] Dev.init).used = [(3, 4), (3, 4)] := by decide

/-! ## What breaks it -/

/-- Whatever the device was, a factory reset interrupted after the first write makes it another device. -/
theorem reset_cut_new_identity (k : Kind) (hk : k ≠ .linux) (d : Dev) (hr : d.running = true) (r : Pair) (h1 : r.1 ≠ 0) (h2 : r.2 ≠ 0) :
    (run k [.reset (fun _ => true) (some 1), .start r (fun _ => true) none] d).used = d.used ++ [r] := by
  obtain ⟨rg, ra⟩ := r
  cases k <;>
    simp_all [run, step, reset, start, upTo, resetWrites, writes, prim, primNvs, primImage, Kept.none, genWrites, genResult, loaded, checked]

/-- NVS and file images: not the full claim, with every write accepted. -/
theorem reset_cut_violation (k : Kind) (hk : k ≠ .linux) :
    ¬ ∀ ops, (∀ op ∈ ops, Accepted op) → OneIdentity (run k ops Dev.init).used := by
  intro h
  have := h [.start (5, 6) (fun _ => true) none, .reset (fun _ => true) (some 1), .start (1, 2) (fun _ => true) none]
    (by intro op ho; simp at ho; rcases ho with e | e | e <;> subst e <;> simp [Accepted]) (5, 6)
  cases k
  · exact absurd (this (by decide) (1, 2) (by decide)) (by decide)
  · exact absurd (this (by decide) (1, 2) (by decide)) (by decide)
  · exact hk rfl

/-- A medium that refuses what `commit` writes: success is reported all the same, and each start is another device. -/
theorem refused_commit_new_identity (r r' : Pair) (h : r.1 ≠ 0 ∧ r.2 ≠ 0) (h' : r'.1 ≠ 0 ∧ r'.2 ≠ 0) :
    (run .image [.start r (fun _ => false) none, .start r' (fun _ => false) none] Dev.init).used = [r, r'] := by
  obtain ⟨a, b⟩ := r
  obtain ⟨a', b'⟩ := r'
  simp_all [run, step, start, upTo, writes, prim, primImage, Kept.none, genWrites, genResult, loaded, checked, Dev.init]

/-- So without interrupted resets the claim still fails for file images. -/
theorem refused_commit_violation : ¬ ∀ ops, (∀ op ∈ ops, Whole op) → OneIdentity (run .image ops Dev.init).used := by
  intro h
  have := h [.start (5, 6) (fun _ => false) none, .start (1, 2) (fun _ => false) none]
    (by intro op ho; simp at ho; rcases ho with e | e <;> subst e <;> trivial) (5, 6) (by decide) (1, 2) (by decide)
  exact absurd this (by decide)

/-! ## GUID and key belong together -/

/-- On the medium: no key without a GUID, and if both are there they were generated together. -/
structure Together (P : Pair → Prop) (d : Dev) : Prop where
  auth : d.m.dur.guid = none → d.m.dur.auth = none
  both : ∀ g a, d.m.dur.guid = some g → d.m.dur.auth = some a → P (g, a)
  used : ∀ i ∈ d.used, P i
  ran : d.running = true → d.m.live = ⟨some d.reg.1, some d.reg.2⟩ ∧ d.m.dur = ⟨some d.reg.1, some d.reg.2⟩ ∧ P d.reg

/-- The medium's half of `Together`. -/
def DurTogether (P : Pair → Prop) (l : Kept) : Prop := (l.guid = none → l.auth = none) ∧ ∀ g a, l.guid = some g → l.auth = some a → P (g, a)

theorem together_checked {P : Pair → Prop} {d : Dev} (hd : DurTogether P d.m.dur) (hu : ∀ i ∈ d.used, P i)
    (hr : d.reg.1 ≠ 0 → d.reg.2 ≠ 0 → d.m.live = ⟨some d.reg.1, some d.reg.2⟩ ∧ d.m.dur = ⟨some d.reg.1, some d.reg.2⟩ ∧ P d.reg) :
    Together P (checked d) := by
  unfold checked
  by_cases h : d.reg.1 = 0 ∨ d.reg.2 = 0
  · rw [if_pos h]
    exact ⟨hd.1, hd.2, hu, by simp⟩
  · rw [if_neg h]
    have h1 := hr (fun e => h (Or.inl e)) (fun e => h (Or.inr e))
    refine ⟨hd.1, hd.2, ?_, fun _ => h1⟩
    intro i hi
    rcases List.mem_append.1 hi with hi | hi
    · exact hu i hi
    · rw [List.mem_singleton.1 hi]; exact h1.2.2

theorem gen_dur {P : Pair → Prop} {k : Kind} {r : Pair} (hr : P r) {ok : Nat → Bool} (ha : ∀ n, ok n = true) (cut : Option Nat) {l : Kept}
    (hl : DurTogether P l) (hc : (l.guid.isSome && l.auth.isSome) = false) :
    DurTogether P (writes k ok 0 (upTo cut (genWrites k r)) ⟨l, l⟩).dur := by
  obtain ⟨g, a⟩ := l
  obtain ⟨rg, ra⟩ := r
  have hln : a = none := by
    cases a with
    | none => rfl
    | some a =>
      cases g with
      | none => have := hl.1 rfl; simp at this
      | some g => simp at hc
  subst hln
  have fin : ∀ ps : List Prim, (ps = [] ∨ ∃ c, ps = upTo c (genWrites k (rg, ra))) →
      DurTogether P (writes k ok 0 ps ⟨⟨g, none⟩, ⟨g, none⟩⟩).dur := by
    intro ps hps
    rcases hps with e | ⟨c, e⟩
    · subst e; exact hl
    · subst e
      cases k with
      | linux =>
        by_cases hz : rg = 0 ∨ ra = 0
        · have : upTo c (genWrites .linux (rg, ra)) = [] := by cases c <;> simp [upTo, genWrites, hz]
          rw [this]; exact hl
        · have e : genWrites .linux (rg, ra) = [.setGuid rg, .setAuth ra, .trunc, .fileGuid, .fileAuth] := if_neg hz
          rw [e]
          clear e hz
          rcases c with _ | _ | _ | _ | _ | _ | c <;>
            simp_all [upTo, writes, prim, primLinux, Kept.none, DurTogether]
      | nvs => rcases c with _ | _ | _ | _ | c <;> simp_all [upTo, genWrites, writes, prim, primNvs, DurTogether]
      | image => rcases c with _ | _ | _ | _ | c <;> simp_all [upTo, genWrites, writes, prim, primImage, DurTogether]
  exact fin _ (Or.inr ⟨cut, rfl⟩)

theorem together_start {P : Pair → Prop} {k : Kind} {r : Pair} (hr : P r) {ok : Nat → Bool} (ha : ∀ n, ok n = true) {cut : Option Nat} {d : Dev}
    (h : Together P d) : Together P (start k r ok cut d) := by
  have hl : DurTogether P d.m.dur := ⟨h.auth, h.both⟩
  unfold start
  dsimp only
  cases hc : (d.m.dur.guid.isSome && d.m.dur.auth.isSome)
  · rw [if_neg (by simp)]
    have hg := gen_dur (k := k) hr ha cut hl hc
    cases cut with
    | some c => exact ⟨hg.1, hg.2, h.used, by simp⟩
    | none =>
      simp only [Option.isSome_none, Bool.false_eq_true, if_false]
      refine together_checked hg h.used ?_
      dsimp only [upTo]
      obtain ⟨rg, ra⟩ := r
      cases k with
      | linux =>
        by_cases hz : rg = 0 ∨ ra = 0
        · have hres : genResult .linux (rg, ra) ok = false := by simp [genResult, hz]
          rw [hres]
          obtain ⟨⟨live, ⟨g, a⟩⟩, reg, running, used⟩ := d
          cases g <;> cases a <;> simp_all [loaded]
        · simp [genResult, hz, genWrites, writes, prim, primLinux, ha, loaded, Kept.none]
          exact fun _ _ => hr
      | nvs =>
        simp [genResult, genWrites, writes, prim, primNvs, ha, loaded]
        exact fun _ _ => hr
      | image =>
        simp [genResult, genWrites, writes, prim, primImage, ha, loaded]
        exact fun _ _ => hr
  · rw [if_pos rfl]
    refine together_checked hl h.used ?_
    intro _ _
    have e := loaded_complete hc (0, 0)
    refine ⟨e, e, ?_⟩
    exact h.both _ _ (by rw [e]; rfl) (by rw [e]; rfl)

theorem together_reset {P : Pair → Prop} {k : Kind} {ok : Nat → Bool} (ha : ∀ n, ok n = true) {cut : Option Nat} {d : Dev} (h : Together P d) :
    Together P (reset k ok cut d) := by
  unfold reset
  cases hr : d.running
  · rw [if_neg (by simp)]; exact h
  · rw [if_pos rfl]
    obtain ⟨hl, hd, hp⟩ := h.ran hr
    have hu := h.used
    obtain ⟨⟨live, dur⟩, ⟨rg, ra⟩, running, used⟩ := d
    dsimp only at hl hd hp hu
    subst hl hd
    have key : DurTogether P (writes k ok 0 (upTo cut (resetWrites (rg, ra))) ⟨⟨some rg, some ra⟩, ⟨some rg, some ra⟩⟩).dur ∧
        (cut = none → writes k ok 0 (upTo cut (resetWrites (rg, ra))) ⟨⟨some rg, some ra⟩, ⟨some rg, some ra⟩⟩ =
          ⟨⟨some rg, some ra⟩, ⟨some rg, some ra⟩⟩) := by
      cases k <;> rcases cut with _ | _ | _ | _ | _ | c <;>
        simp_all [upTo, resetWrites, writes, prim, primNvs, primImage, primLinux, Kept.none, DurTogether]
    refine ⟨key.1.1, key.1.2, hu, ?_⟩
    intro hcut
    have hn : cut = none := by cases cut <;> simp_all
    dsimp only
    rw [key.2 hn]
    exact ⟨rfl, rfl, hp⟩

theorem together_save {P : Pair → Prop} {k : Kind} {ok : Bool} {d : Dev} (h : Together P d) : Together P (save k ok d) := by
  unfold save
  cases hr : d.running
  · rw [if_neg (by simp)]; exact h
  · rw [if_pos rfl]
    obtain ⟨hl, hd, hp⟩ := h.ran hr
    have key : prim k ok d.m .commit = d.m := by
      obtain ⟨⟨live, dur⟩, reg, running, used⟩ := d
      dsimp only at hl hd
      subst hl hd
      cases k <;> simp [prim, primNvs, primImage, primLinux]
    rw [key]
    exact ⟨h.auth, h.both, h.used, fun _ => ⟨hl, hd, hp⟩⟩

/-- Wherever the power fails, factory resets included, the device never runs with the GUID of one generation and the key of another: each identity
used is, as a whole, one the generator gave. -/
theorem never_mixed_partial (k : Kind) (P : Pair → Prop) (ops : List Op) (ha : ∀ op ∈ ops, Accepted op)
    (hP : ∀ r ok cut, Op.start r ok cut ∈ ops → P r) : ∀ i ∈ (run k ops Dev.init).used, P i := by
  have go : ∀ (ops : List Op) (d : Dev), Together P d → (∀ op ∈ ops, Accepted op) → (∀ r ok cut, Op.start r ok cut ∈ ops → P r) →
      Together P (run k ops d) := by
    intro ops
    induction ops with
    | nil => intro d h _ _; exact h
    | cons op ops ih =>
      intro d h ha hP
      refine ih _ ?_ (fun o ho => ha o (by simp [ho])) (fun r ok cut ho => hP r ok cut (by simp [ho]))
      have hacc := ha op (by simp)
      cases op with
      | start r ok cut => exact together_start (hP r ok cut (by simp)) hacc h
      | reset ok cut => exact together_reset hacc h
      | save ok => exact together_save h
  exact (go ops Dev.init ⟨by simp [Dev.init, Kept.none], by simp [Dev.init, Kept.none], by simp [Dev.init], by simp [Dev.init]⟩ ha hP).used

/-- Cuts between GUID and key, in a first start and in a reset; the pairs used are (5,6) and (3,4). -/
example : (run .nvs [.start (7, 8) (fun _ => true) (some 1), .start (5, 6) (fun _ => true) none, .reset (fun _ => true) (some 2),
    .start (3, 4) (fun _ => true) none] Dev.init).used = [(5, 6), (3, 4)] := by decide

/-- The full claim, media that refuse a write included. -/
def NeverMixed (k : Kind) : Prop := ∀ (P : Pair → Prop) (ops : List Op), (∀ r ok cut, Op.start r ok cut ∈ ops → P r) →
  ∀ i ∈ (run k ops Dev.init).used, P i

/-- NVS: the power fails between GUID and key, and at the next start only the second write is accepted: the old GUID with a new key, for good. -/
theorem mixed_violation : ¬ NeverMixed .nvs := by
  intro h
  have := h (fun i => i = (7, 8) ∨ i = (5, 6)) [.start (7, 8) (fun _ => true) (some 1), .start (5, 6) (fun n => n == 1) none]
    (by intro r ok cut ho; simp at ho; rcases ho with e | e <;> simp [e.1]) (7, 6) (by decide)
  simp at this

/-! ## Starting -/

/-- A start that is not cut off succeeds, unless zeros are stored or generated. -/
theorem starts (k : Kind) (d : Dev) (r : Pair) (ok : Nat → Bool) (ha : ∀ n, ok n = true) (h1 : r.1 ≠ 0) (h2 : r.2 ≠ 0)
    (hg : d.m.dur.guid ≠ some 0) (hk : d.m.dur.auth ≠ some 0) : (start k r ok none d).running = true := by
  obtain ⟨⟨live, ⟨g, a⟩⟩, reg, running, used⟩ := d
  obtain ⟨rg, ra⟩ := r
  dsimp only at h1 h2 hg hk
  cases k <;> cases g <;> cases a <;>
    simp_all [start, upTo, genWrites, genResult, writes, prim, primNvs, primImage, primLinux, loaded, checked, Kept.none]

/-- If one half was lost from the medium, the other half is replaced as well. -/
theorem lost_half_renewed (k : Kind) (d : Dev) (r : Pair) (ok : Nat → Bool) (ha : ∀ n, ok n = true) (h1 : r.1 ≠ 0) (h2 : r.2 ≠ 0)
    (hl : d.m.dur.guid = none ∨ d.m.dur.auth = none) : (start k r ok none d).used = d.used ++ [r] := by
  obtain ⟨⟨live, ⟨g, a⟩⟩, reg, running, used⟩ := d
  obtain ⟨rg, ra⟩ := r
  dsimp only at h1 h2 hl
  cases k <;> cases g <;> cases a <;>
    simp_all [start, upTo, genWrites, genResult, writes, prim, primNvs, primImage, primLinux, loaded, checked, Kept.none]

/-- The GUID of a device that lost its key would be worth keeping: the user would see the same device. It is not kept. -/
theorem guid_not_kept_violation : ¬ ∀ (k : Kind) (d : Dev) (r : Pair) (g : Nat), g ≠ 0 → d.m.dur.guid = some g →
    (start k r (fun _ => true) none d).reg.1 = g := by
  intro h
  have := h .nvs ⟨⟨Kept.none, ⟨some 7, none⟩⟩, (0, 0), false, []⟩ (1, 2) 7 (by decide) rfl
  revert this; decide

/-- Nothing or zeros are stored. -/
def Blank (l : Kept) : Prop := l.guid.getD 0 = 0 ∧ l.auth.getD 0 = 0

theorem blank_writes (k : Kind) (hk : k ≠ .linux) (ok : Nat → Bool) (ps : List Prim)
    (hp : ∀ p ∈ ps, p = .setGuid 0 ∨ p = .setAuth 0 ∨ p = .commit) (n : Nat) (m : Mem) (h : Blank m.live ∧ Blank m.dur) :
    Blank (writes k ok n ps m).live ∧ Blank (writes k ok n ps m).dur := by
  induction ps generalizing n m with
  | nil => exact h
  | cons p ps ih =>
    refine ih (fun q hq => hp q (by simp [hq])) _ _ ?_
    obtain ⟨⟨g, a⟩, ⟨g', a'⟩⟩ := m
    obtain ⟨⟨h1, h2⟩, h3, h4⟩ := h
    dsimp only at h1 h2 h3 h4
    cases k with
    | linux => exact absurd rfl hk
    | nvs => rcases hp p (by simp) with e | e | e <;> subst e <;> cases ok n <;> simp [prim, primNvs, Blank, h1, h2, h3, h4]
    | image => rcases hp p (by simp) with e | e | e <;> subst e <;> cases ok n <;> simp [prim, primImage, Blank, h1, h2, h3, h4]

theorem blank_gen (k : Kind) (ok : Nat → Bool) (cut : Option Nat) (m : Mem) (h : Blank m.live ∧ Blank m.dur) :
    Blank (writes k ok 0 (upTo cut (genWrites k (0, 0))) m).live ∧ Blank (writes k ok 0 (upTo cut (genWrites k (0, 0))) m).dur := by
  by_cases hk : k = .linux
  · subst hk
    have e : upTo cut (genWrites .linux (0, 0)) = [] := by cases cut <;> simp [upTo, genWrites]
    rw [e]; exact h
  · refine blank_writes k hk ok _ ?_ 0 m h
    intro p hp
    have hp' : p ∈ genWrites k (0, 0) := by
      cases cut with
      | none => exact hp
      | some c => exact List.mem_of_mem_take hp
    cases k with
    | linux => exact absurd rfl hk
    | nvs => simpa [genWrites] using hp'
    | image => simpa [genWrites] using hp'

theorem blank_loaded {l : Kept} (h : Blank l) : loaded l (0, 0) = (0, 0) := Prod.ext h.1 h.2

theorem zeros_checked {d : Dev} (h : d.reg = (0, 0)) : checked d = { d with running := false } := by
  unfold checked
  rw [if_pos (by rw [h]; exact Or.inl rfl)]

/-- A board for which no generator is written (key_value.cpp 62-64, Arduino Mega) gives zeros, and then the device never starts. -/
theorem zeros_never_start (k : Kind) (ops : List Op) (hz : ∀ r ok cut, Op.start r ok cut ∈ ops → r = (0, 0)) :
    (run k ops Dev.init).used = [] ∧ (run k ops Dev.init).running = false := by
  have go : ∀ (ops : List Op) (d : Dev), (d.used = [] ∧ d.running = false ∧ Blank d.m.dur) →
      (∀ r ok cut, Op.start r ok cut ∈ ops → r = (0, 0)) → (run k ops d).used = [] ∧ (run k ops d).running = false := by
    intro ops
    induction ops with
    | nil => intro d h _; exact ⟨h.1, h.2.1⟩
    | cons op ops ih =>
      intro d h hz
      refine ih _ ?_ (fun r ok cut ho => hz r ok cut (by simp [ho]))
      obtain ⟨hu, hr, hb⟩ := h
      cases op with
      | reset ok cut => simp [step, reset, hr, hu, hb]
      | save ok => simp [step, save, hr, hu, hb]
      | start r ok cut =>
        have hr0 := hz r ok cut (by simp)
        subst hr0
        have hg := blank_gen k ok cut ⟨d.m.dur, d.m.dur⟩ ⟨hb, hb⟩
        have hl := blank_loaded hb
        show (start k (0, 0) ok cut d).used = [] ∧ (start k (0, 0) ok cut d).running = false ∧ Blank (start k (0, 0) ok cut d).m.dur
        unfold start
        dsimp only
        generalize writes k ok 0 (upTo cut (genWrites k (0, 0))) ⟨d.m.dur, d.m.dur⟩ = m at hg
        rw [hl]
        have hl2 : (if genResult k (0, 0) ok = true then loaded m.live (0, 0) else (0, 0)) = (0, 0) := by
          rw [blank_loaded hg.1]
          exact ite_self _
        rw [hl2]
        cases d.m.dur.guid.isSome && d.m.dur.auth.isSome
        · rw [if_neg (by simp)]
          cases cut.isSome
          · rw [if_neg (by simp), zeros_checked rfl]
            exact ⟨hu, rfl, hg.2⟩
          · exact ⟨hu, rfl, hg.2⟩
        · rw [if_pos rfl, zeros_checked rfl]
          exact ⟨hu, rfl, hb⟩
  exact go ops Dev.init ⟨rfl, rfl, rfl, rfl⟩ hz

/-! ## Linux: how much chance there is in an identity -/

/-- Two devices set up at different times have different identities, for some generator at least. -/
def Distinct : Prop := ∃ mt, ∀ t t' : Nat, t ≠ t' → linuxMade mt t ≠ linuxMade mt t'

/-- For every generator the identity repeats after 2^32 ticks of the clock, about 4.3 seconds in nanoseconds. -/
theorem repeats (mt : Nat → Pair) (t n : Nat) : linuxMade mt (t + n * 2 ^ 32) = linuxMade mt t := by
  unfold linuxMade
  rw [Nat.add_mul_mod_self_right]

theorem distinct_violation : ¬ Distinct := by
  rintro ⟨mt, h⟩
  exact h (0 + 1 * 2 ^ 32) 0 (by decide) (repeats mt 0 1)

/-- The key should not follow from the GUID. For every generator that gives different GUIDs for different seeds it does. -/
theorem key_follows_from_guid_violation (mt : Nat → Pair) (h : ∀ s s', s < 2 ^ 32 → s' < 2 ^ 32 → (mt s).1 = (mt s').1 → s = s') :
    ∃ f : Nat → Nat, ∀ t, (linuxMade mt t).2 = f (linuxMade mt t).1 := by
  classical
  refine ⟨fun g => if hx : ∃ s, s < 2 ^ 32 ∧ (mt s).1 = g then (mt hx.choose).2 else 0, ?_⟩
  intro t
  have hlt : t % 2 ^ 32 < 2 ^ 32 := Nat.mod_lt _ (by decide)
  have hx : ∃ s, s < 2 ^ 32 ∧ (mt s).1 = (linuxMade mt t).1 := ⟨t % 2 ^ 32, hlt, rfl⟩
  dsimp only
  rw [dif_pos hx]
  have := h _ _ hx.choose_spec.1 hlt hx.choose_spec.2
  rw [this]
  rfl

/-- Such a generator: the GUID is the seed plus one. -/
example : ∀ s s' : Nat, s < 2 ^ 32 → s' < 2 ^ 32 → ((fun s => (s + 1, s * s + 1)) s : Pair).1 = ((fun s => (s + 1, s * s + 1)) s' : Pair).1 → s = s' := by
  intro s s' _ _ h
  simpa using h

/-- Of 2^128 keys at most 2^32 are ever given: whichever the generator, and even among any 2^32 + 1 keys, some key never occurs. -/
theorem few_keys (mt : Nat → Pair) (keys : Finset Nat) (hk : 2 ^ 32 < keys.card) : ∃ a ∈ keys, ∀ t, (linuxMade mt t).2 ≠ a := by
  have hc : ((Finset.range (2 ^ 32)).image (fun s => (mt s).2)).card < keys.card :=
    lt_of_le_of_lt (le_trans Finset.card_image_le (le_of_eq (Finset.card_range _))) hk
  obtain ⟨a, ha, hn⟩ := Finset.exists_mem_notMem_of_card_lt_card hc
  refine ⟨a, ha, ?_⟩
  intro t e
  exact hn (Finset.mem_image.2 ⟨t % 2 ^ 32, Finset.mem_range.2 (Nat.mod_lt _ (by decide)), e⟩)

end Verif.Identity
