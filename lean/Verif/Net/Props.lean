import Verif.Net.Model

/-!
# C81: an enabled interface is used, a wired one first; C82: a complete configuration
-/

namespace Verif.Net

/-! ## Specification -/

/-- An interface may be used: it is not switched off in the settings; Wi-Fi always in configuration mode. -/
def usable (n : Net) (c : Cfg) (k : Kind) : Bool :=
  match k with
  | .wifi => n.config || c.wifiDis == 0
  | .ethernet => c.ethDis == 0
  | .unknown => true

/-- Usable and wired (or of unknown kind). -/
def wired (n : Net) (c : Cfg) (i : Intf) : Bool := usable n c i.kind && i.kind != .wifi

/-- The interface to use: the last wired one, else the one used so far if it may be used, else the first that
may be used, else the one used so far. -/
def best (n : Net) (c : Cfg) : Option Nat :=
  match n.intfs.reverse.find? (wired n c) with
  | some i => some i.id
  | none =>
    match n.intfs.find? (fun i => usable n c i.kind && n.main == some i.id) with
    | some i => some i.id
    | none =>
      match n.intfs.find? (fun i => usable n c i.kind) with
      | some i => some i.id
      | none => n.main

/-- As made by the program: every interface has its own identity and there is a main one if there is any. -/
structure Valid (n : Net) : Prop where
  ids : (n.intfs.map (·.id)).Nodup
  main : ∀ m, n.main = some m → ∃ i ∈ n.intfs, i.id = m
  some : n.main = none → n.intfs = []

/-! ## The loops -/

theorem kind_onLoad (c : Cfg) (i : Intf) : (onLoad c i).kind = i.kind ∧ (onLoad c i).id = i.id ∧ (onLoad c i).asked = i.asked := by
  unfold onLoad; split <;> simp_all

theorem disabled_onLoad (n : Net) (c : Cfg) (i : Intf) : disabled n (onLoad c i) = !usable n c i.kind := by
  unfold disabled usable onLoad
  cases hk : i.kind <;> cases n.config <;> simp <;> rfl

theorem disabled_loaded (n : Net) (c : Cfg) (i : Intf) : disabled (loaded n c) i = disabled n i := rfl

theorem firstLoop_eq (n : Net) : ∀ (l : List Intf) (m : Option Nat),
    firstLoop n l m = if l.any (fun i => disabled n i && m == some i.id) then none else m := by
  intro l
  induction l with
  | nil => intro m; rfl
  | cons i l ih =>
    intro m
    rw [firstLoop, ih, List.any_cons]
    cases h : (disabled n i && m == some i.id) with
    | false => simp
    | true => simp

theorem secondLoop_eq (n : Net) : ∀ (l : List Intf) (m : Option Nat),
    secondLoop n l m = match l.reverse.find? (fun i => !disabled n i && i.kind != .wifi) with
      | some i => some i.id
      | none => match m with
        | some x => some x
        | none => (l.find? (fun i => !disabled n i)).map (·.id) := by
  intro l
  induction l with
  | nil => intro m; cases m <;> rfl
  | cons i l ih =>
    intro m
    rw [secondLoop, ih, List.reverse_cons, List.find?_append]
    cases hl : l.reverse.find? (fun i => !disabled n i && i.kind != .wifi) with
    | some j => simp
    | none =>
      simp only [Option.none_or, List.find?_cons, List.find?_nil]
      cases hd : disabled n i <;> cases hk : i.kind <;> cases m <;> first | rfl | (simp <;> rfl)

theorem find_map (c : Cfg) (l : List Intf) (p q : Intf → Bool) (h : ∀ i, p (onLoad c i) = q i) :
    ((l.map (onLoad c)).find? p).map (·.id) = (l.find? q).map (·.id) := by
  induction l with
  | nil => rfl
  | cons i l ih =>
    rw [List.map_cons, List.find?_cons, List.find?_cons, h i]
    cases q i with
    | true => simp [kind_onLoad]
    | false => exact ih

theorem map_id_match (o : Option Intf) (x : Option Nat) :
    (match o with | some i => some i.id | none => x) = (match o.map (·.id) with | some y => some y | none => x) := by
  cases o <;> rfl

theorem unique_id : ∀ l : List Intf, (l.map (·.id)).Nodup → ∀ i j, i ∈ l → j ∈ l → i.id = j.id → i = j := by
  intro l
  induction l with
  | nil => intro _ i j hi; cases hi
  | cons x l ih =>
    intro hn i j hi hj he
    rw [List.map_cons, List.nodup_cons] at hn
    rcases List.mem_cons.1 hi with rfl | hi'
    · rcases List.mem_cons.1 hj with rfl | hj
      · rfl
      · exact absurd (List.mem_map.2 ⟨j, hj, he.symm⟩) hn.1
    · rcases List.mem_cons.1 hj with rfl | hj
      · exact (hn.1 (List.mem_map.2 ⟨i, hi', he⟩)).elim
      · exact ih hn.2 i j hi' hj he

/-- **C81.** The choice of the interface. -/
theorem best_is_used (n : Net) (c : Cfg) (hv : Valid n) : (loadConfig n c).main = best n c := by
  have hmain : (loadConfig n c).main = (match secondLoop (loaded n c) (loaded n c).intfs (firstLoop (loaded n c) (loaded n c).intfs n.main) with
      | none => n.main | some m => some m) := by
    unfold loadConfig
    split <;> simp_all [loaded]
  rw [hmain, secondLoop_eq, firstLoop_eq]
  have e1 : ((loaded n c).intfs.reverse.find? (fun i => !disabled (loaded n c) i && i.kind != .wifi)).map (·.id) = (n.intfs.reverse.find? (wired n c)).map (·.id) := by
    rw [show (loaded n c).intfs.reverse = n.intfs.reverse.map (onLoad c) by simp [loaded]]
    exact find_map c _ _ _ (fun i => by rw [disabled_loaded, disabled_onLoad, (kind_onLoad c i).1]; simp [wired])
  have e2 : ((loaded n c).intfs.find? (fun i => !disabled (loaded n c) i)).map (·.id) = (n.intfs.find? (fun i => usable n c i.kind)).map (·.id) :=
    find_map c _ _ _ (fun i => by rw [disabled_loaded, disabled_onLoad]; simp)
  have e3 : (loaded n c).intfs.any (fun i => disabled (loaded n c) i && n.main == some i.id) = n.intfs.any (fun i => !usable n c i.kind && n.main == some i.id) := by
    simp only [loaded, List.any_map]
    congr 1
    funext i
    simp only [Function.comp_apply, (kind_onLoad c i).2.1]
    rw [show disabled { intfs := n.intfs.map (onLoad c), main := n.main, config := n.config } (onLoad c i) = !usable n c i.kind from disabled_onLoad n c i]
  rw [map_id_match, e1, e2, e3]
  unfold best
  rw [map_id_match]
  cases (n.intfs.reverse.find? (wired n c)).map (·.id) with
  | some x => rfl
  | none =>
    dsimp only
    have hu := unique_id n.intfs hv.ids
    cases hm : n.main with
    | none =>
      have := hv.some hm
      simp [this]
    | some m =>
      obtain ⟨i, hi, rfl⟩ := hv.main m hm
      cases hus : usable n c i.kind with
      | true =>
        have ha : n.intfs.any (fun j => !usable n c j.kind && some i.id == some j.id) = false := by
          rw [List.any_eq_false]
          intro j hj hx
          simp at hx
          have := hu i j hi hj hx.2
          subst this
          simp [hus] at hx
        rw [ha]
        cases hf : n.intfs.find? (fun j => usable n c j.kind && some i.id == some j.id) with
        | none =>
          rw [List.find?_eq_none] at hf
          exact absurd (by simp [hus]) (hf i hi)
        | some j =>
          have := List.find?_some hf
          simp at this
          simp [this.2]
      | false =>
        have ha : n.intfs.any (fun j => !usable n c j.kind && some i.id == some j.id) = true := by
          rw [List.any_eq_true]
          exact ⟨i, hi, by simp [hus]⟩
        rw [ha]
        have hf : n.intfs.find? (fun j => usable n c j.kind && some i.id == some j.id) = none := by
          rw [List.find?_eq_none]
          intro j hj hx
          simp at hx
          have := hu i j hi hj hx.2
          subst this
          simp [hus] at hx
        rw [hf]
        simp only [if_true]
        cases n.intfs.find? (fun i => usable n c i.kind) <;> rfl

theorem intfs_load (n : Net) (c : Cfg) : (loadConfig n c).intfs = n.intfs.map (onLoad c) ∧ (loadConfig n c).config = n.config := by
  unfold loadConfig; split <;> exact ⟨rfl, rfl⟩

theorem best_mem (n : Net) (c : Cfg) (hv : Valid n) (m : Nat) (h : best n c = some m) : ∃ i ∈ n.intfs, i.id = m := by
  unfold best at h
  split at h
  · rename_i i hi
    injection h with h
    exact ⟨i, List.mem_reverse.1 (List.mem_of_find?_eq_some hi), h⟩
  · split at h
    · rename_i i hi
      injection h with h
      exact ⟨i, List.mem_of_find?_eq_some hi, h⟩
    · split at h
      · rename_i i hi
        injection h with h
        exact ⟨i, List.mem_of_find?_eq_some hi, h⟩
      · exact hv.main m h

theorem valid_load (n : Net) (c : Cfg) (hv : Valid n) : Valid (loadConfig n c) := by
  obtain ⟨h1, _⟩ := intfs_load n c
  have hids : (loadConfig n c).intfs.map (·.id) = n.intfs.map (·.id) := by
    rw [h1, List.map_map]
    exact List.map_congr_left (fun i _ => (kind_onLoad c i).2.1)
  refine ⟨by rw [hids]; exact hv.ids, ?_, ?_⟩
  · intro m hm
    rw [best_is_used n c hv] at hm
    obtain ⟨i, hi, he⟩ := best_mem n c hv m hm
    exact ⟨onLoad c i, by rw [h1]; exact List.mem_map_of_mem hi, by rw [(kind_onLoad c i).2.1, he]⟩
  · intro hm
    rw [best_is_used n c hv] at hm
    have : n.main = none := by
      unfold best at hm
      split at hm
      · cases hm
      · split at hm
        · cases hm
        · split at hm
          · cases hm
          · exact hm
    rw [h1, hv.some this]; rfl

/-- **C81.** If any interface may be used, one that may be used is: the main interface is never one that is
switched off while another is not. And it is wired if any wired one may be used. -/
theorem usable_is_used (n : Net) (c : Cfg) (hv : Valid n) (h : ∃ i ∈ n.intfs, usable n c i.kind = true) :
    ∃ i ∈ n.intfs, (loadConfig n c).main = some i.id ∧ usable n c i.kind = true ∧
      ((∃ j ∈ n.intfs, usable n c j.kind = true ∧ j.kind ≠ .wifi) → i.kind ≠ .wifi) := by
  rw [best_is_used n c hv]
  unfold best
  cases h1 : n.intfs.reverse.find? (wired n c) with
  | some i =>
    have hw := List.find?_some h1
    simp only [wired, Bool.and_eq_true, bne_iff_ne, ne_eq] at hw
    exact ⟨i, List.mem_reverse.1 (List.mem_of_find?_eq_some h1), rfl, hw.1, fun _ => hw.2⟩
  | none =>
    have hno : ¬ ∃ j ∈ n.intfs, usable n c j.kind = true ∧ j.kind ≠ .wifi := by
      intro ⟨j, hj, h2, h3⟩
      rw [List.find?_eq_none] at h1
      exact h1 j (List.mem_reverse.2 hj) (by simp [wired, h2, h3])
    dsimp only
    cases h2 : n.intfs.find? (fun i => usable n c i.kind && n.main == some i.id) with
    | some i =>
      have := List.find?_some h2
      simp only [Bool.and_eq_true] at this
      exact ⟨i, List.mem_of_find?_eq_some h2, rfl, this.1, fun h => absurd h hno⟩
    | none =>
      dsimp only
      cases h3 : n.intfs.find? (fun i => usable n c i.kind) with
      | some i => exact ⟨i, List.mem_of_find?_eq_some h3, rfl, List.find?_some (p := fun i : Intf => usable n c i.kind) h3, fun h => absurd h hno⟩
      | none =>
        obtain ⟨j, hj, hu⟩ := h
        rw [List.find?_eq_none] at h3
        exact absurd hu (h3 j hj)

/-- Wi-Fi made first, then a wired interface. -/
def both : Net := { intfs := [⟨1, .wifi, false, false⟩, ⟨2, .ethernet, false, false⟩], main := some 1, config := false }

/-- The wired one made first. -/
def wiredFirst : Net := { intfs := [⟨2, .ethernet, false, false⟩, ⟨1, .wifi, false, false⟩], main := some 2, config := false }

theorem valid_both : Valid both :=
  ⟨by decide, by intro m h; injection h with h; subst h; exact ⟨⟨1, .wifi, false, false⟩, by decide, rfl⟩, (by intro h; cases h)⟩

theorem valid_wiredFirst : Valid wiredFirst :=
  ⟨by decide, by intro m h; injection h with h; subst h; exact ⟨⟨2, .ethernet, false, false⟩, by decide, rfl⟩, (by intro h; cases h)⟩

/-- Everything set but Wi-Fi. -/
def noWifi : Cfg :=
  { wifiDis := 0, ethDis := 0, ssid := [], password := [], suplaOn := true, server := [115], email := [64], mqttOn := false, mserver := [],
    auth := false, muser := [], mpassword := [] }

example : (loadConfig both noWifi).main = some 2 := by decide
example : ∃ i ∈ wiredFirst.intfs, usable wiredFirst { noWifi with ethDis := 1 } i.kind = true := by decide
example : (loadConfig wiredFirst { noWifi with ethDis := 1 }).main = some 1 := by decide

/-- **C81.** Loading the settings again changes nothing: the choice is stable. -/
theorem choice_stable (n : Net) (c : Cfg) (hv : Valid n) : (loadConfig (loadConfig n c) c).main = (loadConfig n c).main := by
  obtain ⟨e1, e2⟩ := intfs_load n c
  have hus : ∀ k, usable (loadConfig n c) c k = usable n c k := by intro k; simp only [usable, e2]
  have hw : ∀ i, wired (loadConfig n c) c (onLoad c i) = wired n c i := by
    intro i; simp only [wired, hus, (kind_onLoad c i).1]
  rw [best_is_used _ c (valid_load n c hv)]
  have f1 : ((loadConfig n c).intfs.reverse.find? (wired (loadConfig n c) c)).map (·.id) = (n.intfs.reverse.find? (wired n c)).map (·.id) := by
    rw [e1, ← List.map_reverse]
    exact find_map c _ _ _ hw
  rw [best, map_id_match, f1]
  cases hf : n.intfs.reverse.find? (wired n c) with
  | some i => rw [best_is_used n c hv, best, hf]; rfl
  | none =>
    dsimp only [Option.map_none]
    cases h2 : (loadConfig n c).intfs.find? (fun i => usable (loadConfig n c) c i.kind && (loadConfig n c).main == some i.id) with
    | some i =>
      have := List.find?_some h2
      simp only [Bool.and_eq_true, beq_iff_eq] at this
      exact this.2.symm
    | none =>
      dsimp only
      cases h3 : (loadConfig n c).intfs.find? (fun i => usable (loadConfig n c) c i.kind) with
      | none => rfl
      | some i =>
        exfalso
        have hi := List.mem_of_find?_eq_some h3
        have hu := List.find?_some (p := fun i : Intf => usable (loadConfig n c) c i.kind) h3
        rw [e1, List.mem_map] at hi
        obtain ⟨j, hj, rfl⟩ := hi
        rw [hus, (kind_onLoad c j).1] at hu
        obtain ⟨k, hk, m1, m2, _⟩ := usable_is_used n c hv ⟨j, hj, hu⟩
        rw [List.find?_eq_none] at h2
        refine h2 (onLoad c k) (by rw [e1]; exact List.mem_map_of_mem hk) ?_
        simp [hus, kind_onLoad, m1, m2]

/-! ## Setting up -/

theorem fold_any (n : Net) (p : Intf → Bool) : ∀ (l : List Intf) (b : Bool),
    l.foldl (fun b i => if !disabled n i then (if p i then true else b) else b) b = (b || l.any (fun i => !disabled n i && p i)) := by
  intro l
  induction l with
  | nil => intro b; simp
  | cons i l ih =>
    intro b
    rw [List.foldl_cons, ih, List.any_cons]
    cases disabled n i <;> cases p i <;> cases b <;> simp

/-- **C81.** The network is ready when an interface that is not switched off is. -/
theorem ready_iff (n : Net) (r : Nat → Bool) : isReady n r = true ↔ ∃ i ∈ n.intfs, disabled n i = false ∧ r i.id = true := by
  unfold isReady
  rw [fold_any n (fun i => r i.id)]
  simp

/-- **C81.** A request to set up is honoured once: the next poll sets up all interfaces that are not switched
off, if any of them asked, and the poll after that none. -/
theorem asked_once (n : Net) :
    (poll n).1 = (if n.intfs.any (fun i => !disabled n i && i.asked) then (n.intfs.filter (fun i => !disabled n i)).map (·.id) else []) ∧
    (poll (poll n).2).1 = [] := by
  have hd : ∀ i : Intf, disabled (pop n).2 i = disabled n i := fun i => rfl
  have hs : setup (pop n).2 = setup n := by
    simp only [setup, pop, List.filter_map, List.map_map]
    have e : ∀ i : Intf, disabled { n with intfs := n.intfs.map (fun i => if disabled n i then i else { i with asked := false }) }
        (if disabled n i = true then i else { i with asked := false }) = disabled n i := by
      intro i
      split <;> rfl
    rw [show ((fun i => !disabled { n with intfs := n.intfs.map (fun i => if disabled n i then i else { i with asked := false }) } i) ∘
        fun i => if disabled n i = true then i else { i with asked := false }) = fun i => !disabled n i from funext (fun i => by
          simp only [Function.comp_apply]; rw [e])]
    refine List.map_congr_left (fun i _ => ?_)
    simp only [Function.comp_apply]
    split <;> rfl
  have hp : ∀ m : Net, (pop m).1 = m.intfs.any (fun i => !disabled m i && i.asked) := by
    intro m
    show m.intfs.foldl _ false = _
    rw [fold_any m (fun i => i.asked)]
    simp
  refine ⟨?_, ?_⟩
  · unfold poll
    rw [hp]
    split
    · exact hs
    · rfl
  · have h2 : (poll n).2 = (pop n).2 := by unfold poll; split <;> rfl
    have h3 : (pop (pop n).2).1 = false := by
      rw [hp, List.any_eq_false]
      intro i hi
      have hi' : i ∈ n.intfs.map (fun i => if disabled n i then i else { i with asked := false }) := hi
      rw [List.mem_map] at hi'
      obtain ⟨j, _, rfl⟩ := hi'
      rw [hd]
      cases hj : disabled n j with
      | true => simp [hj]
      | false => simp
    rw [h2]
    unfold poll
    rw [h3]
    rfl

/-- **C81.** Entering configuration mode sets up every Wi-Fi interface, even one that is switched off. -/
theorem config_mode_has_wifi (n : Net) (i : Intf) (hi : i ∈ n.intfs) (hk : i.kind = .wifi) : i.id ∈ (poll (setConfigMode n)).1 := by
  have hm : ({ i with asked := true } : Intf) ∈ (setConfigMode n).intfs := List.mem_map.2 ⟨i, hi, rfl⟩
  have hd : disabled (setConfigMode n) { i with asked := true } = false := by simp [disabled, setConfigMode, hk]
  rw [(asked_once (setConfigMode n)).1, if_pos]
  · rw [List.mem_map]
    exact ⟨_, List.mem_filter.2 ⟨hm, by rw [hd]; rfl⟩, rfl⟩
  · rw [List.any_eq_true]
    exact ⟨_, hm, by simp [hd]⟩

example : ∃ i ∈ (loadConfig both { noWifi with wifiDis := 1 }).intfs, i.kind = .wifi ∧ i.off = true := by decide
example : (poll (ask both)).1 = [1, 2] ∧ (poll both).1 = [] := by decide

/-! ## A complete configuration -/

/-- What a device needs: name and password of the network if it goes over Wi-Fi, and what the protocols that
are on need. -/
def complete (n : Net) (c : Cfg) : Bool :=
  (n.intfs.any (fun i => best n c == some i.id && usable n c i.kind && i.kind == .wifi) → c.ssid ≠ [] ∧ c.password ≠ []) &&
  (c.suplaOn → c.server ≠ [] ∧ c.email ≠ []) && (c.mqttOn → c.mserver ≠ [] ∧ (c.auth → c.muser ≠ [] ∧ c.mpassword ≠ []))

/-- The full claim of C82: the device takes its configuration for complete exactly if it is. -/
def CompleteExact : Prop := ∀ (n : Net) (c : Cfg), Valid n → (minimalReady n c).1 = complete n c

/-- **C82 is false as stated.** The device looks at the interface that was the main one before the settings
were loaded. With the wired interface made first and switched off in the settings, it would go over Wi-Fi, but
does not notice that it has no network name. -/
theorem complete_exact_violation : ¬ CompleteExact := by
  intro h
  have := h wiredFirst { noWifi with ethDis := 1 } valid_wiredFirst
  revert this; decide

/-- The full claim that the answer does not depend on how often it was asked for. -/
def AnswerStable : Prop := ∀ (n : Net) (c : Cfg), Valid n → (minimalReady (minimalReady n c).2 c).1 = (minimalReady n c).1

/-- **C82 is false as stated.** A device with Wi-Fi and a wired interface that uses the wired one asks for a
network name when it looks for the first time, and not when it looks again. -/
theorem answer_stable_violation : ¬ AnswerStable := by
  intro h
  have := h both noWifi valid_both
  revert this; decide

theorem protocolPart_eq (c : Cfg) : protocolPart c = ((c.suplaOn → c.server ≠ [] ∧ c.email ≠ []) && (c.mqttOn → c.mserver ≠ [] ∧ (c.auth → c.muser ≠ [] ∧ c.mpassword ≠ []))) := by
  unfold protocolPart
  cases c.suplaOn <;> cases c.mqttOn <;> cases c.auth <;> cases c.server <;> cases c.email <;> cases c.mserver <;> cases c.muser <;>
    cases c.mpassword <;> rfl

/-- **C82, restricted.** From the second look on, with the settings unchanged, the device takes its
configuration for complete exactly if it is. Missing: the first look, where it judges the interface it would
have used before. -/
theorem complete_exact_partial (n : Net) (c : Cfg) (hv : Valid n) : (minimalReady (minimalReady n c).2 c).1 = complete n c := by
  obtain ⟨e1, e2⟩ := intfs_load n c
  obtain ⟨g1, g2⟩ := intfs_load (loadConfig n c) c
  have hv2 := valid_load n c hv
  show (wifiPart (loadConfig n c) c && protocolPart c) = complete n c
  have hw : wifiPart (loadConfig n c) c = (n.intfs.any (fun i => best n c == some i.id && usable n c i.kind && i.kind == .wifi) → c.ssid ≠ [] ∧ c.password ≠ [] : Bool) := by
    unfold wifiPart
    rw [best_is_used n c hv]
    cases hb : best n c with
    | none => simp
    | some m =>
      dsimp only
      obtain ⟨i, hi, rfl⟩ := best_mem n c hv m hb
      have hfind : (loadConfig (loadConfig n c) c).intfs.find? (fun j => j.id == i.id) = some (onLoad c (onLoad c i)) := by
        rw [g1, e1]
        cases hf : ((n.intfs.map (onLoad c)).map (onLoad c)).find? (fun j => j.id == i.id) with
        | none =>
          rw [List.find?_eq_none] at hf
          exact absurd (by simp [kind_onLoad]) (hf (onLoad c (onLoad c i)) (List.mem_map_of_mem (List.mem_map_of_mem hi)))
        | some j =>
          have h1 := List.find?_some hf
          have h2 := List.mem_of_find?_eq_some hf
          rw [List.mem_map] at h2
          obtain ⟨j', h2, rfl⟩ := h2
          rw [List.mem_map] at h2
          obtain ⟨k, h2, rfl⟩ := h2
          simp only [kind_onLoad, beq_iff_eq] at h1
          rw [unique_id n.intfs hv.ids k i h2 hi h1]
      rw [hfind]
      dsimp only
      have hd : disabled (loadConfig (loadConfig n c) c) (onLoad c (onLoad c i)) = !usable n c i.kind := by
        have h1 : disabled (loadConfig (loadConfig n c) c) (onLoad c (onLoad c i)) = disabled (loaded n c) (onLoad c (onLoad c i)) := by
          simp only [disabled, g2, e2]; rfl
        have h2 : disabled (loaded n c) (onLoad c (onLoad c i)) = disabled n (onLoad c (onLoad c i)) := rfl
        rw [h1, h2, disabled_onLoad, (kind_onLoad c i).1]
      rw [hd, (kind_onLoad c _).1, (kind_onLoad c i).1, Bool.not_not]
      have ha : n.intfs.any (fun j => some i.id == some j.id && usable n c j.kind && j.kind == .wifi) = (usable n c i.kind && i.kind == .wifi) := by
        rw [Bool.eq_iff_iff, List.any_eq_true]
        constructor
        · intro ⟨j, hj, h⟩
          simp only [Bool.and_eq_true, beq_iff_eq, Option.some.injEq] at h
          have := unique_id n.intfs hv.ids i j hi hj h.1.1
          subst this
          rw [h.1.2, h.2]; rfl
        · intro h
          simp only [Bool.and_eq_true, beq_iff_eq] at h
          exact ⟨i, hi, by rw [h.1, h.2]; simp⟩
      rw [ha]
      cases (usable n c i.kind && i.kind == .wifi) <;> cases c.ssid <;> cases c.password <;> simp
  rw [hw, protocolPart_eq, complete, Bool.and_assoc]

example : (minimalReady (minimalReady both noWifi).2 noWifi).1 = true ∧ (minimalReady (minimalReady wiredFirst { noWifi with ethDis := 1 }).2 { noWifi with ethDis := 1 }).1 = false := by
  decide

end Verif.Net
