import Verif.Button.Spec

/-! # C19: multi-click counting -/

namespace Verif.Button

theorem runPasses_append (c : Cfg) (s : St) (a b : List Pass) :
    runPasses c s (a ++ b) = ((runPasses c (runPasses c s a).1 b).1,
      (runPasses c s a).2 ++ (runPasses c (runPasses c s a).1 b).2) := by
  induction a generalizing s with
  | nil => simp [runPasses]
  | cons x xs ih =>
    obtain ⟨t, r⟩ := x
    simp only [List.cons_append, runPasses, ih, List.append_assoc]

theorem clicks_append (a b : List (Nat × Ev)) : clicks (a ++ b) = clicks a ++ clicks b := by
  simp [clicks]

theorem clicks_map (t : Nat) (l : List Ev) : clicks (l.map (fun e => (t, e))) = l.filter isClickEv := by
  simp [clicks, Function.comp_def]

theorem clickEvents_filter (n : Nat) : (clickEvents n).filter isClickEv = clickEvents n := by
  unfold clickEvents
  split
  · rfl
  · split <;> rfl

theorem longEvents_255 : longEvents 255 = [] := rfl

theorem clickEvents_0 : clickEvents 0 = [] := rfl

/-- Where a burst stands after `k` clicks and the click events `fired` so far. -/
structure BInv (c : Cfg) (k last : Nat) (s : St) (fired : List Ev) : Prop where
  hold : s.hold = 0
  stamp : s.last = clk last
  nz : clk last ≠ 0
  pos : 1 ≤ k
  cnt : (s.cnt = k ∧ k ≤ c.maxClick ∧ fired = [])
    ∨ (s.cnt = 255 ∧ c.maxClick ≤ k ∧ fired = clickEvents c.maxClick)
    ∨ (s.cnt = c.maxClick + 1 ∧ c.maxClick < k ∧ fired = [])

theorem changed_clicks (c : Cfg) (s : St) (t : Nat) (r : Res) :
    (changed c s t r).2.filter isClickEv = [] := by
  simp only [changed]
  split <;> split <;> rfl

theorem binv_change {c : Cfg} (hc : c.Clicks) {k last : Nat} {s : St} {fired : List Ev}
    (hi : BInv c k last s fired) (t : Nat) (r : Res) (hr : r = .toPressed ∨ r = .toReleased)
    (hz : clk t ≠ 0) :
    BInv c (k + if counts c.kind r then 1 else 0) t (logic c s t r).1
      (fired ++ (logic c s t r).2.filter isClickEv) := by
  have hcnt : (c.multi > 0 ∧ (r = .toPressed ∨ c.kind = .bi ∨ c.kind = .motion) ∧ s.cnt ≤ c.maxClick)
      ↔ (counts c.kind r = true ∧ s.cnt ≤ c.maxClick) := by
    have := hc.multi
    rcases hr with rfl | rfl <;> cases hk : c.kind <;> simp [counts, this]
  simp only [logic, hr, if_true, changed_clicks, List.append_nil]
  simp only [changed]
  refine ⟨hi.hold, rfl, hz, ?_, ?_⟩
  · have := hi.pos; omega
  · have h10 := hc.max10
    simp only [hcnt]
    by_cases hcr : counts c.kind r = true
    · simp only [hcr, true_and, if_true]
      rcases hi.cnt with ⟨h1, h2, h3⟩ | ⟨h1, h2, h3⟩ | ⟨h1, h2, h3⟩
      · rw [if_pos (by omega)]
        by_cases hk : k = c.maxClick
        · right; right; exact ⟨by omega, by omega, h3⟩
        · left; exact ⟨by omega, by omega, h3⟩
      · rw [if_neg (by omega)]
        right; left; exact ⟨h1, by omega, h3⟩
      · rw [if_neg (by omega)]
        right; right; exact ⟨h1, by omega, h3⟩
    · simp only [hcr, false_and, if_false, Bool.false_eq_true]
      exact hi.cnt

theorem binv_pressed {c : Cfg} (hc : c.Clicks) {k last : Nat} {s : St} {fired : List Ev}
    (hi : BInv c k last s fired) (t : Nat) (hk : c.kind = .mono) (ht : last ≤ t)
    (hh : c.holdTime = 0 ∨ t - last ≤ c.holdTime) :
    logic c s t .pressed = (s, []) := by
  have hn : ¬ (since (clk t) s.last > (c.holdTime + s.hold * c.rep) % 2 ^ 32 ∧ c.holdTime > 0) := by
    rw [hi.stamp, hi.hold]
    have := since_clk_le t last ht
    have := hc.hold16
    omega
  simp only [logic, reduceCtorEq, or_self, if_false, hk, true_and, if_true]
  split
  · unfold holding
    rw [if_neg]
    intro h
    exact hn ⟨h.2.2.1, h.2.1⟩
  · rfl

theorem logic_evaluate {c : Cfg} {s : St} {t : Nat} {r : Res}
    (hr : r = .released ∨ (r = .pressed ∧ c.kind ≠ .mono)) (hl : s.last ≠ 0) :
    logic c s t r = evaluate c s (since (clk t) s.last) := by
  rcases hr with rfl | ⟨rfl, hk⟩
  · simp [logic, hl]
  · have : c.kind = .bi ∨ c.kind = .motion := by
      cases h : c.kind <;> simp_all
    simp [logic, hl, hk, this]

theorem binv_eval {c : Cfg} (hc : c.Clicks) {k last : Nat} {s : St} {fired : List Ev}
    (hi : BInv c k last s fired) (t : Nat) (r : Res)
    (hr : r = .released ∨ (r = .pressed ∧ c.kind ≠ .mono)) (ht : last ≤ t)
    (hm : t - last ≤ c.multi) :
    BInv c k last (logic c s t r).1 (fired ++ (logic c s t r).2.filter isClickEv) := by
  have hl : s.last ≠ 0 := by rw [hi.stamp]; exact hi.nz
  rw [logic_evaluate hr hl, hi.stamp]
  have hle := since_clk_le t last ht
  have hnd : ¬ (since (clk t) (clk last) > c.multi) := by omega
  have h0 : c.multi ≠ 0 := by have := hc.multi; omega
  have h1 : c.multi > 0 := hc.multi
  have h10 := hc.max10
  simp only [evaluate, h0, if_false, h1, true_and, hnd, false_or]
  by_cases hx : c.maxClick = s.cnt
  · rw [if_pos hx]
    simp only [hi.hold, true_and]
    rw [if_pos (by omega)]
    refine ⟨rfl, hi.stamp, hi.nz, hi.pos, ?_⟩
    right; left
    rcases hi.cnt with ⟨h1, h2, h3⟩ | ⟨h1, h2, h3⟩ | ⟨h1, h2, h3⟩
    · refine ⟨rfl, by omega, ?_⟩
      rw [h3, clickEvents_filter, hx]; rfl
    · omega
    · omega
  · rw [if_neg hx]
    simpa using hi

theorem binv_final {c : Cfg} (hc : c.Clicks) {k last : Nat} {s : St} {fired : List Ev}
    (hi : BInv c k last s fired) (t : Nat) (r : Res)
    (hr : r = .released ∨ (r = .pressed ∧ c.kind ≠ .mono)) (ht : last ≤ t)
    (hm : t - last > c.multi) (hw : t - last < 2 ^ 32) :
    (logic c s t r).1.cnt = 0 ∧ (logic c s t r).1.hold = 0
    ∧ (k ≤ c.maxClick → fired ++ (logic c s t r).2.filter isClickEv = clickEvents k)
    ∧ (c.maxClick < k → fired ++ (logic c s t r).2.filter isClickEv = clickEvents c.maxClick
      ∨ fired ++ (logic c s t r).2.filter isClickEv = clickEvents (c.maxClick + 1)) := by
  have hl : s.last ≠ 0 := by rw [hi.stamp]; exact hi.nz
  rw [logic_evaluate hr hl, hi.stamp, since_clk_eq t last ht hw]
  have h0 : c.multi ≠ 0 := by have := hc.multi; omega
  have h1 : c.multi > 0 := hc.multi
  have h10 := hc.max10
  simp only [evaluate, h0, if_false, h1, true_and, hm, true_or, if_true, hi.hold]
  rcases hi.cnt with ⟨h1, h2, h3⟩ | ⟨h1, h2, h3⟩ | ⟨h1, h2, h3⟩
  · rw [if_pos (by omega), clickEvents_filter, h3, h1]
    exact ⟨fun _ => rfl, fun h => by omega⟩
  · rw [if_neg (by omega), h1, longEvents_255, h3]
    simp only [List.filter_nil, List.append_nil, true_or, implies_true, and_true]
    intro h
    rw [show k = c.maxClick by omega]
  · rw [if_pos (by omega), clickEvents_filter, h3, h1]
    exact ⟨fun h => by omega, fun _ => .inr rfl⟩

theorem binv_run {c : Cfg} (hc : c.Clicks) : ∀ (l : List Pass) (k last : Nat) (s : St) (fired : List Ev),
    BInv c k last s fired → InBurst c last l → OffZero l →
    BInv c (k + clickCount c.kind l) (lastChange last l) (runPasses c s l).1
      (fired ++ clicks (runPasses c s l).2) := by
  intro l
  induction l with
  | nil => intro k last s fired hi _ _; simpa [clickCount, lastChange, runPasses, clicks] using hi
  | cons p rest ih =>
    obtain ⟨t, r⟩ := p
    intro k last s fired hi hb hz
    have hz' : OffZero rest := fun p hp => hz p (by simp [hp])
    have hcc : clickCount c.kind ((t, r) :: rest)
        = (if counts c.kind r then 1 else 0) + clickCount c.kind rest := by
      simp only [clickCount, List.countP_cons]; omega
    simp only [runPasses, lastChange, hcc, clicks_append, clicks_map]
    rw [← Nat.add_assoc, ← List.append_assoc]
    cases r with
    | toPressed =>
      refine ih _ _ _ _ (binv_change hc hi t _ (.inl rfl) (hz (t, .toPressed) (by simp) (.inl rfl))) ?_ hz'
      simpa using hb.2.2
    | toReleased =>
      refine ih _ _ _ _ (binv_change hc hi t _ (.inr rfl) (hz (t, .toReleased) (by simp) (.inr rfl))) ?_ hz'
      simpa using hb.2.2
    | pressed =>
      have h1 : counts c.kind .pressed = false := rfl
      simp only [h1, Bool.false_eq_true, if_false, Nat.add_zero, reduceCtorEq, or_self]
      obtain ⟨ht, _, hm, hb'⟩ := hb
      by_cases hk : c.kind = .mono
      · rw [if_pos hk] at hm
        rw [binv_pressed hc hi t hk ht hm]
        refine ih _ _ _ _ (by simpa using hi) hb' hz'
      · rw [if_neg hk] at hm
        exact ih _ _ _ _ (binv_eval hc hi t _ (.inr ⟨rfl, hk⟩) ht hm) hb' hz'
    | released =>
      have h1 : counts c.kind .released = false := rfl
      simp only [h1, Bool.false_eq_true, if_false, Nat.add_zero, reduceCtorEq, or_self]
      obtain ⟨ht, _, hm, hb'⟩ := hb
      exact ih _ _ _ _ (binv_eval hc hi t _ (.inl rfl) ht hm) hb' hz'

theorem binv_first {c : Cfg} (hc : c.Clicks) (s : St) (hcnt : s.cnt = 0) (hh : s.hold = 0)
    (t : Nat) (r : Res) (hr : counts c.kind r = true) (hz : clk t ≠ 0) :
    BInv c 1 t (logic c s t r).1 (clicks ((logic c s t r).2.map (fun e => (t, e)))) := by
  have hrr : r = .toPressed ∨ r = .toReleased := by
    cases r <;> simp_all [counts]
  have hcnt' : (c.multi > 0 ∧ (r = .toPressed ∨ c.kind = .bi ∨ c.kind = .motion) ∧ s.cnt ≤ c.maxClick) := by
    refine ⟨hc.multi, ?_, by omega⟩
    rcases hrr with rfl | rfl
    · exact .inl rfl
    · right; cases hk : c.kind <;> simp_all [counts]
  simp only [clicks_map, logic, hrr, if_true, changed_clicks]
  simp only [changed]
  rw [if_pos hcnt']
  refine ⟨hh, rfl, hz, by omega, .inl ⟨?_, hc.max1, rfl⟩⟩
  simp only [hcnt]

/-- C19 for one burst, in full: from rest, a burst of n clicks (n within the configured maximum)
raises exactly the event for n clicks, and the button is at rest again. -/
def BurstExact : Prop :=
  ∀ (c : Cfg) (s : St) (b : Burst), c.Clicks → s.cnt = 0 → s.hold = 0 → b.Good c →
    b.n c ≤ c.maxClick → clicks (runPasses c s b.passes).2 = expected (b.n c)

/-- C19 is false of the code in one corner: a click released at a moment where the 32-bit clock reads
0 (every 49.7 days) is never reported, because 0 marks "no change yet". -/
theorem clock_zero_violation : ¬ BurstExact := by
  intro h
  have := h { kind := .mono, multi := 300, holdTime := 0, rep := 0, repOn := false, maxClick := 2 }
    init { t0 := 2 ^ 32 - 100, r0 := .toPressed, mid := [(2 ^ 32, .toReleased)],
           tf := 2 ^ 32 + 400, rf := .released }
    ⟨by decide, by decide, by decide, by decide, by decide⟩ rfl rfl
    ⟨rfl, ⟨by decide, by decide, trivial⟩, .inl rfl, by decide, by decide, by decide⟩ (by decide)
  exact absurd this (by decide +kernel)

/-- C19 for one burst, everything but the corner above: exactly one click event, the right one; and
for a burst longer than the configured maximum at most one click event (`ON_CRAZY_CLICKER` included),
namely the one for the maximum or for one more than it. -/
theorem burst_exact_partial {c : Cfg} (hc : c.Clicks) (s : St) (hcnt : s.cnt = 0) (hh : s.hold = 0)
    (b : Burst) (hb : b.Good c) (hz : OffZero b.passes) :
    (b.n c ≤ c.maxClick → clicks (runPasses c s b.passes).2 = expected (b.n c))
    ∧ (c.maxClick < b.n c → clicks (runPasses c s b.passes).2 = expected c.maxClick
      ∨ clicks (runPasses c s b.passes).2
        = if c.maxClick = 10 then [] else expected (c.maxClick + 1))
    ∧ (runPasses c s b.passes).1.cnt = 0 ∧ (runPasses c s b.passes).1.hold = 0 := by
  have hz0 : clk b.t0 ≠ 0 := by
    refine hz (b.t0, b.r0) (by simp [Burst.passes]) ?_
    have := hb.first
    cases hr : b.r0 <;> simp_all [counts]
  have hzm : OffZero b.mid := fun p hp => hz p (by simp [Burst.passes, hp])
  have h1 := binv_first hc s hcnt hh b.t0 b.r0 hb.first hz0
  have h2 := binv_run hc b.mid _ _ _ _ h1 hb.inBurst hzm
  have h3 := binv_final hc h2 b.tf b.rf hb.endsQuiet hb.order hb.rest hb.noWrap
  have hn : b.n c = 1 + clickCount c.kind b.mid := by
    have : counts c.kind b.rf = false := by
      rcases hb.endsQuiet with h | h
      · rw [h]; rfl
      · rw [h.1]; rfl
    simp only [Burst.n, Burst.passes, clickCount, List.cons_append, List.countP_cons,
      List.countP_append, hb.first, this, List.countP_nil, if_true, Bool.false_eq_true, if_false]
    omega
  have hrun : runPasses c s b.passes =
      ((runPasses c (logic c s b.t0 b.r0).1 (b.mid ++ [(b.tf, b.rf)])).1,
        (logic c s b.t0 b.r0).2.map (fun e => (b.t0, e)) ++
          (runPasses c (logic c s b.t0 b.r0).1 (b.mid ++ [(b.tf, b.rf)])).2) := rfl
  have hexp : ∀ n, 1 ≤ n → n ≤ 10 → clickEvents n = expected n := by
    intro n h1 h2
    unfold clickEvents expected
    split
    · rfl
    · rw [if_pos (by omega)]
  have h10 := hc.max10
  have hm1 := hc.max1
  rw [hrun]
  simp only [runPasses_append, runPasses, clicks_append, clicks_map, List.append_nil] at h3 ⊢
  rw [← hn] at h3
  rw [← List.append_assoc]
  obtain ⟨ha, hb', hcc, hdd⟩ := h3
  refine ⟨fun hle => ?_, ?_, ha, hb'⟩
  · rw [← hexp _ (by omega) (by omega)]; exact hcc hle
  · intro hlt
    rw [← hexp _ hm1 (by omega)]
    refine (hdd hlt).imp_right fun h => h.trans ?_
    split
    · rename_i h; rw [h]; rfl
    · exact hexp _ (by omega) (by omega)

/-- A session: passes at rest (no change, and a monostable button released) and bursts. -/
inductive Item
  | rest (t : Nat) (r : Res)
  | burst (b : Burst)

/-- The passes of an item. -/
def Item.passes : Item → List Pass
  | .rest t r => [(t, r)]
  | .burst b => b.passes

/-- Rest passes are rest passes, bursts are good bursts of at most `maxClick` clicks. -/
def Item.Good (c : Cfg) : Item → Prop
  | .rest _ r => r = .released ∨ (r = .pressed ∧ c.kind ≠ .mono)
  | .burst b => b.Good c ∧ b.n c ≤ c.maxClick ∧ OffZero b.passes

/-- What a listener should hear. -/
def Item.heard (c : Cfg) : Item → List Ev
  | .rest _ _ => []
  | .burst b => expected (b.n c)

theorem rest_pass {c : Cfg} (hc : c.Clicks) (s : St) (hcnt : s.cnt = 0) (hh : s.hold = 0)
    (t : Nat) (r : Res) (hr : r = .released ∨ (r = .pressed ∧ c.kind ≠ .mono)) :
    (logic c s t r).1.cnt = 0 ∧ (logic c s t r).1.hold = 0 ∧ (logic c s t r).2 = [] := by
  by_cases hl : s.last = 0
  · have : logic c s t r = (s, []) := by
      rcases hr with rfl | ⟨rfl, _⟩ <;> simp [logic, hl]
    rw [this]; exact ⟨hcnt, hh, rfl⟩
  · rw [logic_evaluate hr hl]
    have h0 : c.multi ≠ 0 := by have := hc.multi; omega
    have h1 : c.multi > 0 := hc.multi
    have hm1 := hc.max1
    have hx : ¬ (c.maxClick = 0) := by omega
    simp only [evaluate, h0, if_false, h1, true_and, hcnt, hx, or_false, hh]
    split
    · simp [clickEvents]
    · exact ⟨hcnt, hh, rfl⟩

/-- C19 over whole histories: any number of bursts, with any rest passes in between, is heard as
exactly one click event group per burst, the right one, in order. (Bursts longer than the configured
maximum are covered by `burst_exact_partial`; changes at clock reading 0 are excluded, see
`clock_zero_violation`.) -/
theorem session_exact_partial {c : Cfg} (hc : c.Clicks) : ∀ (items : List Item) (s : St),
    s.cnt = 0 → s.hold = 0 → (∀ i ∈ items, i.Good c) →
    clicks (runPasses c s (items.flatMap Item.passes)).2 = items.flatMap (Item.heard c) := by
  intro items
  induction items with
  | nil => intros; rfl
  | cons i rest ih =>
    intro s h1 h2 hg
    have hgi := hg i (by simp)
    have hgr : ∀ j ∈ rest, j.Good c := fun j hj => hg j (by simp [hj])
    simp only [List.flatMap_cons, runPasses_append, clicks_append]
    cases i with
    | rest t r =>
      obtain ⟨ha, hb, he⟩ := rest_pass hc s h1 h2 t r hgi
      have := ih (runPasses c s (Item.passes (.rest t r))).1 (by simpa [Item.passes, runPasses] using ha)
        (by simpa [Item.passes, runPasses] using hb) hgr
      rw [this]
      simp [Item.passes, runPasses, he, Item.heard, clicks]
    | burst b =>
      obtain ⟨ha, _, hb, hd⟩ := burst_exact_partial hc s h1 h2 b hgi.1 hgi.2.2
      have := ih (runPasses c s (Item.passes (.burst b))).1 hb hd hgr
      rw [this]
      simp only [Item.passes, Item.heard, ha hgi.2.1]

/-- A good burst of three clicks of a monostable button. -/
def sampleBurst : Burst :=
  { t0 := 1000, r0 := .toPressed,
    mid := [(1010, .pressed), (1100, .toReleased), (1110, .released), (1200, .toPressed),
      (1300, .toReleased), (1400, .toPressed), (1500, .toReleased), (1600, .released)],
    tf := 1801, rf := .released }

/-- The configuration of the sample: multi-click time 300 ms, hold time 400 ms, listeners up to
`ON_CLICK_3`. -/
def sampleCfg : Cfg :=
  { kind := .mono, multi := 300, holdTime := 400, rep := 0, repOn := false, maxClick := 3 }

theorem sampleCfg_clicks : sampleCfg.Clicks := ⟨by decide, by decide, by decide, by decide, by decide⟩

theorem sampleBurst_good : sampleBurst.Good sampleCfg :=
  ⟨rfl, by simp [InBurst, sampleBurst, sampleCfg], .inl rfl, by decide, by decide, by decide⟩

example : clicks (runPasses sampleCfg init sampleBurst.passes).2 = [.click 3] :=
  (burst_exact_partial sampleCfg_clicks init rfl rfl sampleBurst sampleBurst_good
    (by simp [OffZero, Burst.passes, sampleBurst, clk])).1 (by decide)

example : clicks (runPasses sampleCfg init
    ([Item.rest 10 .released, .burst sampleBurst, .rest 1900 .released].flatMap Item.passes)).2
      = [.click 3] :=
  session_exact_partial sampleCfg_clicks _ init rfl rfl (by
    intro i hi
    simp only [List.mem_cons, List.not_mem_nil, or_false] at hi
    rcases hi with rfl | rfl | rfl
    · exact .inl rfl
    · exact ⟨sampleBurst_good, by decide, by simp [OffZero, Burst.passes, sampleBurst, clk]⟩
    · exact .inl rfl)

end Verif.Button
