import Verif.Pages.Model

/-!
# C147: saving a page changes only what is on that page

The specification: which settings an element has, which elements are on which page (`html_generator.cpp` 280-327), and
what a browser means by a switch that is not in the form.
-/

namespace Verif.Pages

/-! ## Specification -/

/-- The settings of an element. -/
def settings : Kind → List Text
  | .box t => [t]
  | .eth => [str "eth_dis"]
  | .wifi _ => [str "sid", str "wpw", str "wifi_dis"]
  | .choice t _ _ => [t]
  | .command _ _ => []
  | .text t _ => [t]
  | .updates => [str "updbeta"]

/-- The names of the fields of an element. -/
def names : Kind → List Text
  | .box t => [t]
  | .eth => [str "eth_en"]
  | .wifi _ => [str "sid", str "wpw", str "wifi_en"]
  | .choice t _ _ => [t]
  | .command t _ => [t]
  | .text t _ => [t]
  | .updates => [str "updbeta"]

/-- The page `/beta` shows the choice of an update, the page `/` all others. -/
def shown (beta : Bool) : Kind → Bool
  | .updates => beta
  | _ => !beta

/-- A switch: the name of its field, its setting, the values for on and off. -/
structure Switch where
  field : Text
  setting : Text
  on : Int
  off : Int

/-- The switches of an element. Wi-Fi can be switched off where the device has another interface. -/
def switch : Kind → Option Switch
  | .box t => some ⟨t, t, 1, 0⟩
  | .eth => some ⟨str "eth_en", str "eth_dis", 0, 1⟩
  | .wifi true => some ⟨str "wifi_en", str "wifi_dis", 0, 1⟩
  | _ => none

/-- The last value of a field in a form. -/
def lastValue (f : Text) : List (Text × Text) → Option Text
  | [] => none
  | p :: r => (lastValue f r).or (if p.1 = f then some p.2 else none)

/-- No other element has a field or a setting of this element. -/
def Own (ks : List Kind) (e : Kind) : Prop :=
  ∀ e' ∈ ks, e' ≠ e → (∀ f ∈ names e, f ∉ names e') ∧ (∀ k ∈ settings e, k ∉ settings e')

/-! ## One field -/

theorem handle_none {m : M} {e : Kind} {k v : Text} (h : k ∉ names e) : handle m e k v = none := by
  cases e <;> simp [names] at h <;> simp [handle, h]

theorem put_store (m : M) (k : Text) (v : V) (x : Text) : (put m k v).store x = if x = k then some v else m.store x := rfl

/-- A field changes no setting of another element. -/
theorem handle_store {m m' : M} {e : Kind} {k v : Text} (h : handle m e k v = some m') {x : Text} (hx : x ∉ settings e) :
    m'.store x = m.store x := by
  cases e with
  | box t =>
    simp [settings] at hx
    simp [handle] at h
    rw [← h.2, put_store, if_neg hx]; rfl
  | eth =>
    simp [settings] at hx
    simp [handle] at h
    rw [← h.2, put_store, if_neg hx]; rfl
  | wifi b =>
    simp [settings] at hx
    obtain ⟨h1, h2, h3⟩ := hx
    simp only [handle] at h
    split at h
    · injection h with h; rw [← h]; split
      · rfl
      · rw [put_store, if_neg h1]
    · split at h
      · injection h with h; rw [← h]; split
        · rfl
        · rw [put_store, if_neg h2]
      · split at h
        · injection h with h; rw [← h, put_store, if_neg h3]; rfl
        · cases h
  | choice t vals n =>
    simp [settings] at hx
    simp only [handle] at h
    split at h
    · cases hf : first vals v with
      | none => rw [hf] at h; cases h
      | some a =>
        rw [hf] at h
        injection h with h
        rw [← h]
        dsimp only
        split
        · rfl
        · show (put m t (.num a)).store x = m.store x
          rw [put_store, if_neg hx]
    · cases h
  | command t cmds =>
    simp only [handle] at h
    split at h
    · cases hf : first cmds v with
      | none => rw [hf] at h; cases h
      | some a => rw [hf] at h; injection h with h; rw [← h]
    · cases h
  | text t max =>
    simp [settings] at hx
    simp only [handle] at h
    split at h
    · injection h with h; rw [← h]; split
      · rfl
      · rw [put_store, if_neg hx]
    · cases h
  | updates =>
    simp [settings] at hx
    simp only [handle] at h
    split at h
    · injection h with h; rw [← h, put_store, if_neg hx]
    · cases h

/-- A field changes no flag of another element. -/
theorem handle_found {m m' : M} {e : Kind} {k v : Text} (h : handle m e k v = some m') {f : Text} (hf : f ≠ k) :
    m'.found f = m.found f := by
  cases e with
  | box t =>
    simp [handle] at h
    rw [← h.2, ← h.1]
    simp [put, setFound, hf]
  | eth =>
    simp [handle] at h
    rw [← h.2, ← h.1]
    simp [put, setFound, hf]
  | wifi b =>
    simp only [handle] at h
    split at h
    · injection h with h; rw [← h]; split <;> rfl
    · split at h
      · injection h with h; rw [← h]; split <;> rfl
      · split at h
        · rename_i hk
          injection h with h; rw [← h, ← hk]
          simp [put, setFound, hf]
        · cases h
  | choice t vals n =>
    simp only [handle] at h
    split at h
    · cases hv : first vals v with
      | none => rw [hv] at h; cases h
      | some a => rw [hv] at h; injection h with h; rw [← h]; dsimp only; split <;> rfl
    · cases h
  | command t cmds =>
    simp only [handle] at h
    split at h
    · cases hv : first cmds v with
      | none => rw [hv] at h; cases h
      | some a => rw [hv] at h; injection h with h; rw [← h]
    · cases h
  | text t max =>
    simp only [handle] at h
    split at h
    · injection h with h; rw [← h]; split <;> rfl
    · cases h
  | updates =>
    simp only [handle] at h
    split at h
    · injection h with h; rw [← h]; rfl
    · cases h

/-- The field of a switch sets it. -/
theorem handle_switch {e : Kind} {s : Switch} (hs : switch e = some s) (m : M) (v : Text) :
    ∃ m', handle m e s.field v = some m' ∧ m'.store s.setting = some (.num (if v = str "on" then s.on else s.off)) ∧
      m'.found s.field = true := by
  unfold switch at hs
  split at hs
  · injection hs with hs; rw [← hs]
    refine ⟨_, by rw [handle, if_pos rfl], ?_, ?_⟩ <;> simp [put, setFound, isOn]
  · injection hs with hs; rw [← hs]
    refine ⟨_, by rw [handle, if_pos rfl], ?_, ?_⟩ <;> simp [put, setFound, isOn]
  · injection hs with hs; rw [← hs]
    refine ⟨_, by rw [handle, if_neg (by decide), if_neg (by decide), if_pos rfl], ?_, ?_⟩ <;> simp [put, setFound, isOn]
  · cases hs

/-- Another field of the same element does not set the switch. -/
theorem handle_switch_other {e : Kind} {s : Switch} (hs : switch e = some s) {m m' : M} {k v : Text} (hk : s.field ≠ k)
    (h : handle m e k v = some m') : m'.store s.setting = m.store s.setting := by
  unfold switch at hs
  split at hs
  · injection hs with hs; rw [← hs] at hk ⊢
    simp [handle] at h
    exact absurd h.1.symm hk
  · injection hs with hs; rw [← hs] at hk ⊢
    simp [handle] at h
    exact absurd h.1.symm hk
  · injection hs with hs; rw [← hs] at hk ⊢
    simp only [handle] at h
    split at h
    · injection h with h; rw [← h]; split
      · rfl
      · rw [put_store, if_neg (by decide)]
    · split at h
      · injection h with h; rw [← h]; split
        · rfl
        · rw [put_store, if_neg (by decide)]
      · split at h
        · rename_i hc; exact absurd hc.symm hk
        · cases h
  · cases hs

theorem switch_names {e : Kind} {s : Switch} (hs : switch e = some s) : s.field ∈ names e ∧ s.setting ∈ settings e := by
  unfold switch at hs
  split at hs
  · injection hs with hs; rw [← hs]; simp [names, settings]
  · injection hs with hs; rw [← hs]; simp [names, settings]
  · injection hs with hs; rw [← hs]; simp [names, settings]
  · cases hs

/-! ## A field offered to all elements -/

theorem offer_store (ex : Section) (k v : Text) (x : Text) : ∀ (ks : List Kind) (m : M),
    (∀ e ∈ ks, secOf e ≠ ex → x ∉ settings e) → (offer ex k v ks m).store x = m.store x := by
  intro ks
  induction ks with
  | nil => intro m _; rfl
  | cons e es ih =>
    intro m h
    have ih' := ih m (fun e' he' => h e' (List.mem_cons_of_mem _ he'))
    rw [offer]
    split
    · exact ih'
    · rename_i hne
      split
      · rename_i m' hm
        exact handle_store hm (h e List.mem_cons_self hne)
      · exact ih'

/-- A field with another name leaves the switch alone. -/
theorem offer_other {ex : Section} {e : Kind} {s : Switch} (hs : switch e = some s) {k : Text} (hk : s.field ≠ k) (v : Text) :
    ∀ (ks : List Kind) (m : M), Own ks e →
      (offer ex k v ks m).store s.setting = m.store s.setting ∧ (offer ex k v ks m).found s.field = m.found s.field := by
  intro ks
  induction ks with
  | nil => intro m _; exact ⟨rfl, rfl⟩
  | cons a es ih =>
    intro m h
    have ih' := ih m (fun e' he' => h e' (List.mem_cons_of_mem _ he'))
    rw [offer]
    split
    · exact ih'
    · split
      · rename_i m' hm
        refine ⟨?_, handle_found hm hk⟩
        by_cases ha : a = e
        · rw [ha] at hm; exact handle_switch_other hs hk hm
        · exact handle_store hm ((h a List.mem_cons_self ha).2 _ (switch_names hs).2)
      · exact ih'

/-- The field of a switch reaches it, wherever the element stands. -/
theorem offer_switch {ex : Section} {e : Kind} {s : Switch} (hs : switch e = some s) (hx : secOf e ≠ ex) (v : Text) :
    ∀ (ks : List Kind) (m : M), Own ks e → e ∈ ks →
      (offer ex s.field v ks m).store s.setting = some (.num (if v = str "on" then s.on else s.off)) ∧
      (offer ex s.field v ks m).found s.field = true := by
  intro ks
  induction ks with
  | nil => intro m _ h; cases h
  | cons a es ih =>
    intro m h he
    by_cases ha : a = e
    · obtain ⟨m', h1, h2, h3⟩ := handle_switch hs m v
      rw [offer, ha, if_neg hx, h1]
      exact ⟨h2, h3⟩
    · have he' : e ∈ es := by
        rcases List.mem_cons.mp he with h' | h'
        · exact absurd h'.symm ha
        · exact h'
      have ih' := ih m (fun e' h' => h e' (List.mem_cons_of_mem _ h')) he'
      rw [offer]
      split
      · exact ih'
      · rw [handle_none ((h a List.mem_cons_self ha).1 _ (switch_names hs).1)]
        exact ih'

theorem offers_store (ex : Section) (ks : List Kind) (x : Text) (h : ∀ e ∈ ks, secOf e ≠ ex → x ∉ settings e) :
    ∀ (fs : List (Text × Text)) (m : M), (offers ks ex fs m).store x = m.store x := by
  intro fs
  induction fs with
  | nil => intro m; rfl
  | cons p r ih => intro m; rw [offers, ih, offer_store ex _ _ x ks m h]

/-- All fields of a form. -/
theorem offers_switch {ex : Section} {e : Kind} {s : Switch} (hs : switch e = some s) (hx : secOf e ≠ ex) {ks : List Kind}
    (ho : Own ks e) (he : e ∈ ks) : ∀ (fs : List (Text × Text)) (m : M),
      (offers ks ex fs m).store s.setting = (match lastValue s.field fs with
        | none => m.store s.setting
        | some v => some (.num (if v = str "on" then s.on else s.off))) ∧
      (offers ks ex fs m).found s.field = (m.found s.field || (lastValue s.field fs).isSome) := by
  intro fs
  induction fs with
  | nil => intro m; simp [offers, lastValue]
  | cons p r ih =>
    intro m
    obtain ⟨ih1, ih2⟩ := ih (offer ex p.1 p.2 ks m)
    rw [offers, ih1, ih2]
    by_cases hp : p.1 = s.field
    · obtain ⟨h1, h2⟩ := offer_switch (ex := ex) hs hx p.2 ks m ho he
      rw [hp, h1, h2]
      have e1 : lastValue s.field (p :: r) = (lastValue s.field r).or (some p.2) := by rw [lastValue, if_pos hp]
      rw [e1]
      cases lastValue s.field r <;> simp
    · obtain ⟨h1, h2⟩ := offer_other (ex := ex) hs (fun h => hp h.symm) p.2 ks m ho
      rw [h1, h2]
      have e1 : lastValue s.field (p :: r) = lastValue s.field r := by rw [lastValue, if_neg hp]; simp
      rw [e1]
      exact ⟨rfl, rfl⟩

/-! ## The end of a post -/

theorem finishOne_store (m : M) (e : Kind) {x : Text} (hx : x ∉ settings e) : (finishOne m e).store x = m.store x := by
  cases e with
  | box t =>
    simp [settings] at hx
    simp only [finishOne]
    split
    · rfl
    · show (put m t (.num 0)).store x = _
      rw [put_store, if_neg hx]
  | eth =>
    simp [settings] at hx
    simp only [finishOne]
    split
    · rfl
    · show (put m (str "eth_dis") (.num 1)).store x = _
      rw [put_store, if_neg hx]
  | wifi b =>
    simp [settings] at hx
    simp only [finishOne]
    split
    · show (put m (str "wifi_dis") (.num 1)).store x = _
      rw [put_store, if_neg hx.2.2]
    · rfl
  | choice t vals n =>
    cases n
    · rfl
    · simp only [finishOne]; split <;> rfl
    · simp only [finishOne]; split <;> rfl
  | command t c => rfl
  | text t n => rfl
  | updates => rfl

theorem finishOne_found (m : M) (e : Kind) {f : Text} (hf : f ∉ names e) : (finishOne m e).found f = m.found f := by
  cases e with
  | box t =>
    simp [names] at hf
    simp only [finishOne, setFound, if_neg hf]
    split <;> rfl
  | eth =>
    simp [names] at hf
    simp only [finishOne, setFound, if_neg hf]
    split <;> rfl
  | wifi b =>
    simp [names] at hf
    simp only [finishOne, setFound, if_neg hf.2.2]
    split <;> rfl
  | choice t vals n =>
    cases n
    · rfl
    · simp only [finishOne]; split <;> rfl
    · simp only [finishOne]; split <;> rfl
  | command t c => rfl
  | text t n => rfl
  | updates => rfl

theorem finishOne_switch {e : Kind} {s : Switch} (hs : switch e = some s) (m : M) :
    (finishOne m e).store s.setting = (if m.found s.field then m.store s.setting else some (.num s.off)) ∧
    (finishOne m e).found s.field = false := by
  unfold switch at hs
  split at hs
  · injection hs with hs; rw [← hs]
    refine ⟨?_, by simp [finishOne, setFound]⟩
    simp only [finishOne, setFound]
    split <;> simp [put]
  · injection hs with hs; rw [← hs]
    refine ⟨?_, by simp [finishOne, setFound]⟩
    simp only [finishOne, setFound]
    split <;> simp [put]
  · injection hs with hs; rw [← hs]
    refine ⟨?_, by simp [finishOne, setFound]⟩
    simp only [finishOne, setFound]
    cases m.found (str "wifi_en") <;> simp [put]
  · cases hs

theorem finish_append (ex : Section) : ∀ (a b : List Kind) (m : M), finish ex (a ++ b) m = finish ex b (finish ex a m) := by
  intro a
  induction a with
  | nil => intro b m; rfl
  | cons e es ih => intro b m; rw [List.cons_append, finish, finish, ih]

theorem finish_store (ex : Section) (x : Text) : ∀ (ks : List Kind) (m : M),
    (∀ e ∈ ks, secOf e ≠ ex → x ∉ settings e) → (finish ex ks m).store x = m.store x := by
  intro ks
  induction ks with
  | nil => intro m _; rfl
  | cons e es ih =>
    intro m h
    rw [finish, ih _ (fun e' he' => h e' (List.mem_cons_of_mem _ he'))]
    split
    · rfl
    · rename_i hne
      exact finishOne_store m e (h e List.mem_cons_self hne)

theorem finish_found (ex : Section) (f : Text) : ∀ (ks : List Kind) (m : M),
    (∀ e ∈ ks, f ∉ names e) → (finish ex ks m).found f = m.found f := by
  intro ks
  induction ks with
  | nil => intro m _; rfl
  | cons e es ih =>
    intro m h
    rw [finish, ih _ (fun e' he' => h e' (List.mem_cons_of_mem _ he'))]
    split
    · rfl
    · exact finishOne_found m e (h e List.mem_cons_self)

theorem finish_switch {ex : Section} {e : Kind} {s : Switch} (hs : switch e = some s) (hx : secOf e ≠ ex) {ks : List Kind}
    (ho : Own ks e) (he : e ∈ ks) (hn : ks.Nodup) (m : M) :
    (finish ex ks m).store s.setting = (if m.found s.field then m.store s.setting else some (.num s.off)) ∧
    (finish ex ks m).found s.field = false := by
  obtain ⟨a, b, hab⟩ := List.append_of_mem he
  have hna : ∀ e' ∈ a, e' ≠ e := by
    intro e' h' heq
    rw [hab, List.nodup_append] at hn
    exact hn.2.2 e' h' e List.mem_cons_self heq
  have hnb : ∀ e' ∈ b, e' ≠ e := by
    intro e' h' heq
    rw [hab, List.nodup_append] at hn
    exact (List.nodup_cons.mp hn.2.1).1 (heq ▸ h')
  have oa : ∀ e' ∈ a, e' ∈ ks := fun e' h' => by rw [hab]; exact List.mem_append_left _ h'
  have ob : ∀ e' ∈ b, e' ∈ ks := fun e' h' => by rw [hab]; exact List.mem_append_right _ (List.mem_cons_of_mem _ h')
  have sa := finish_store ex s.setting a m (fun e' h' _ => (ho e' (oa e' h') (hna e' h')).2 _ (switch_names hs).2)
  have fa := finish_found ex s.field a m (fun e' h' => (ho e' (oa e' h') (hna e' h')).1 _ (switch_names hs).1)
  obtain ⟨s1, f1⟩ := finishOne_switch hs (finish ex a m)
  have sb := finish_store ex s.setting b (finishOne (finish ex a m) e)
    (fun e' h' _ => (ho e' (ob e' h') (hnb e' h')).2 _ (switch_names hs).2)
  have fb := finish_found ex s.field b (finishOne (finish ex a m) e)
    (fun e' h' => (ho e' (ob e' h') (hnb e' h')).1 _ (switch_names hs).1)
  rw [hab, finish_append, finish, if_neg hx, sb, fb, s1, f1, sa, fa]
  exact ⟨rfl, rfl⟩

/-! ## Whole posts -/

/-- What a complete post makes of a switch the page handles: on if the last value of its field is "on", off otherwise —
also if the form has no such field. -/
theorem switch_stored {ks : List Kind} {e : Kind} {s : Switch} (hs : switch e = some s) (ho : Own ks e) (he : e ∈ ks)
    (hn : ks.Nodup) (beta : Bool) (hx : secOf e ≠ excluded beta) (fs : List (Text × Text)) (m : M) (hf : m.found s.field = false) :
    (post ks m ⟨beta, false, fs⟩).store s.setting = some (.num (if lastValue s.field fs = some (str "on") then s.on else s.off)) ∧
    (post ks m ⟨beta, false, fs⟩).found s.field = false := by
  obtain ⟨h1, h2⟩ := offers_switch hs hx ho he fs m
  obtain ⟨h3, h4⟩ := finish_switch hs hx ho he hn (offers ks (excluded beta) fs m)
  have hp : post ks m ⟨beta, false, fs⟩ = finish (excluded beta) ks (offers ks (excluded beta) fs m) := rfl
  rw [hp, h3, h4, h2, h1, hf]
  refine ⟨?_, rfl⟩
  cases lastValue s.field fs with
  | none => simp
  | some v => simp

/-- The page `/` as a browser saves it: a switch is stored as it is seen. -/
theorem page_saved {ks : List Kind} {e : Kind} {s : Switch} (hs : switch e = some s) (ho : Own ks e) (he : e ∈ ks)
    (hn : ks.Nodup) (fs : List (Text × Text)) (m : M) (hf : m.found s.field = false) :
    ((post ks m ⟨false, false, fs⟩).store s.setting = some (.num s.on) ↔ lastValue s.field fs = some (str "on")) := by
  have hx : secOf e ≠ excluded false := by
    unfold switch at hs
    split at hs
    · simp [secOf, excluded]
    · simp [secOf, excluded]
    · simp [secOf, excluded]
    · cases hs
  rw [(switch_stored hs ho he hn false hx fs m hf).1]
  have hd : s.on ≠ s.off := by
    unfold switch at hs
    split at hs
    · injection hs with hs; rw [← hs]; simp
    · injection hs with hs; rw [← hs]; simp
    · injection hs with hs; rw [← hs]; simp
    · cases hs
  split
  · simp [*]
  · rename_i h
    simp only [Option.some.injEq, V.num.injEq]
    exact ⟨fun hc => absurd hc.symm hd, fun hc => absurd hc h⟩

/-- The full claim: a post to a page leaves the settings of the elements that are not on that page. -/
def OnlyThePage : Prop := ∀ (ks : List Kind) (m : M) (p : Post) (e : Kind), ks.Nodup → (∀ e ∈ ks, Own ks e) → e ∈ ks →
  shown p.beta e = false → ∀ k ∈ settings e, (post ks m p).store k = m.store k

/-- Proved for all elements but those of the network on the page `/beta`. -/
theorem only_the_page_partial (ks : List Kind) (m : M) (p : Post) (e : Kind) (ho : Own ks e)
    (hsh : shown p.beta e = false) (hnet : p.beta = true → e ≠ .eth ∧ ∀ b, e ≠ .wifi b) : ∀ k ∈ settings e, (post ks m p).store k = m.store k := by
  intro k hk
  have hsec : secOf e = excluded p.beta := by
    unfold excluded
    cases hb : p.beta with
    | true =>
      rw [hb] at hsh
      have := hnet hb
      cases e <;> simp [secOf, shown] at hsh this ⊢
    | false =>
      rw [hb] at hsh
      cases e <;> simp [secOf, shown] at hsh ⊢
  have hall : ∀ e' ∈ ks, secOf e' ≠ excluded p.beta → k ∉ settings e' := by
    intro e' he' hne
    have : e' ≠ e := fun h => hne (by rw [h]; exact hsec)
    exact (ho e' he' this).2 k hk
  unfold post
  split
  · exact offers_store _ ks k hall _ _
  · rw [finish_store _ k ks _ hall]
    exact offers_store _ ks k hall _ _

/-- Saving the page `/beta`, which has no such field, switches Ethernet off, whatever was set, and Wi-Fi too where there
are several interfaces. -/
theorem beta_page_disables {ks : List Kind} (ho : Own ks .eth) (he : Kind.eth ∈ ks) (hw : Own ks (.wifi true))
    (hew : Kind.wifi true ∈ ks) (hn : ks.Nodup) (fs : List (Text × Text)) (m : M) (hf : m.found (str "eth_en") = false)
    (hfw : m.found (str "wifi_en") = false) (h1 : lastValue (str "eth_en") fs = none) (h2 : lastValue (str "wifi_en") fs = none) :
    (post ks m ⟨true, false, fs⟩).store (str "eth_dis") = some (.num 1) ∧
    (post ks m ⟨true, false, fs⟩).store (str "wifi_dis") = some (.num 1) := by
  have a := (switch_stored (s := ⟨str "eth_en", str "eth_dis", 0, 1⟩) rfl ho he hn true (by decide) fs m hf).1
  have b := (switch_stored (s := ⟨str "wifi_en", str "wifi_dis", 0, 1⟩) rfl hw hew hn true (by decide) fs m hfw).1
  dsimp only at a b
  rw [h1] at a
  rw [h2] at b
  exact ⟨a, b⟩

/-- A device with both interfaces, a switch and the beta element. -/
def device : List Kind := [.wifi true, .eth, .box (str "night"), .updates]

/-- Nothing stored. -/
def fresh : M := ⟨fun _ => none, fun _ => false, fun _ => false, [], 0⟩

theorem device_own : ∀ e ∈ device, Own device e := by
  unfold Own device
  decide +kernel

theorem only_the_page_violation : ¬ OnlyThePage := fun h => by
  have := h device fresh ⟨true, false, [(str "updbeta", str "0"), (str "rbt", str "0")]⟩ .eth (by decide +kernel) device_own
    (by decide +kernel) (by decide +kernel) (str "eth_dis") (by decide +kernel)
  revert this
  decide +kernel

/-- The full claim: a setting whose field is not in the form stays. -/
def NamedOnly : Prop := ∀ (ks : List Kind) (m : M) (p : Post) (e : Kind), ks.Nodup → (∀ e ∈ ks, Own ks e) → e ∈ ks →
  (∀ f ∈ names e, lastValue f p.fields = none) → ∀ k ∈ settings e, (post ks m p).store k = m.store k

/-- A form that does not come from the page, like that of a phone app with the name of the network and the server only,
switches off every switch. -/
theorem named_only_violation : ¬ NamedOnly := fun h => by
  have := h device ⟨fun k => if k = str "night" then some (.num 1) else none, fun _ => false, fun _ => false, [], 0⟩
    ⟨false, false, [(str "sid", str "home"), (str "rbt", str "1")]⟩ (.box (str "night")) (by decide +kernel) device_own
    (by decide +kernel) (by decide +kernel) (str "night") (by decide +kernel)
  revert this
  decide +kernel

theorem lastValue_none {f : Text} : ∀ {fs : List (Text × Text)}, lastValue f fs = none → ∀ p ∈ fs, p.1 ≠ f := by
  intro fs
  induction fs with
  | nil => intro _ p hp; cases hp
  | cons q r ih =>
    intro h p hp
    rw [lastValue] at h
    have h2 : lastValue f r = none := by
      cases hr : lastValue f r with
      | none => rfl
      | some a => rw [hr] at h; cases h
    rw [h2] at h
    have h1 : q.1 ≠ f := by
      intro hq
      rw [if_pos hq] at h
      cases h
    rcases List.mem_cons.mp hp with h' | h'
    · rw [h']; exact h1
    · exact ih h2 p h'

theorem offer_named (ex : Section) {k : Text} (v : Text) {e : Kind} (hk : k ∉ names e) {x : Text} (hx : x ∈ settings e) :
    ∀ (ks : List Kind) (m : M), Own ks e → (offer ex k v ks m).store x = m.store x := by
  intro ks
  induction ks with
  | nil => intro m _; rfl
  | cons a es ih =>
    intro m h
    have ih' := ih m (fun e' he' => h e' (List.mem_cons_of_mem _ he'))
    rw [offer]
    split
    · exact ih'
    · by_cases ha : a = e
      · rw [ha, handle_none hk]; exact ih'
      · split
        · rename_i m' hm
          exact handle_store hm ((h a List.mem_cons_self ha).2 x hx)
        · exact ih'

theorem finishOne_plain (m : M) {e : Kind} (hs : switch e = none) : (finishOne m e).store = m.store := by
  cases e with
  | box t => cases hs
  | eth => cases hs
  | wifi b =>
    cases b with
    | true => cases hs
    | false => simp [finishOne, setFound]
  | choice t vals n =>
    cases n
    · rfl
    · simp only [finishOne]; split <;> rfl
    · simp only [finishOne]; split <;> rfl
  | command t c => rfl
  | text t n => rfl
  | updates => rfl

/-- Settings that are not switches stay when their fields are not in the form. -/
theorem named_only_partial (ks : List Kind) (m : M) (p : Post) (e : Kind) (ho : Own ks e) (hs : switch e = none)
    (hf : ∀ f ∈ names e, lastValue f p.fields = none) : ∀ k ∈ settings e, (post ks m p).store k = m.store k := by
  intro k hk
  have hof : ∀ (fs : List (Text × Text)), (∀ q ∈ fs, q.1 ∉ names e) → ∀ m, (offers ks (excluded p.beta) fs m).store k = m.store k := by
    intro fs
    induction fs with
    | nil => intro _ m; rfl
    | cons q r ih =>
      intro hq m
      rw [offers, ih (fun q' h' => hq q' (List.mem_cons_of_mem _ h')), offer_named _ _ (hq q List.mem_cons_self) hk ks m ho]
  have hn : ∀ q ∈ p.fields, q.1 ∉ names e := fun q hq hc => lastValue_none (hf q.1 hc) q hq rfl
  have hfin : ∀ (l : List Kind) (m : M), (∀ e' ∈ l, e' ∈ ks) → (finish (excluded p.beta) l m).store k = m.store k := by
    intro l
    induction l with
    | nil => intro m _; rfl
    | cons a es ih =>
      intro m hl
      rw [finish, ih _ (fun e' h' => hl e' (List.mem_cons_of_mem _ h'))]
      split
      · rfl
      · by_cases ha : a = e
        · rw [ha, finishOne_plain m hs]
        · exact finishOne_store m a ((ho a (hl a List.mem_cons_self) ha).2 k hk)
  unfold post
  split
  · exact hof _ hn m
  · rw [hfin ks _ (fun _ h => h)]
    exact hof _ hn m

/-! ## A form that breaks off -/

/-- If a form broke off after a switch that was on, the next form cannot switch it off: that it is missing is not noticed. -/
theorem cut_then_off {ks : List Kind} {e : Kind} {s : Switch} (hs : switch e = some s) (ho : Own ks e) (he : e ∈ ks)
    (hn : ks.Nodup) (beta : Bool) (hx : secOf e ≠ excluded beta) (fs gs : List (Text × Text)) (m : M)
    (h1 : lastValue s.field fs = some (str "on")) (h2 : lastValue s.field gs = none) :
    (posts ks m [⟨beta, true, fs⟩, ⟨beta, false, gs⟩]).store s.setting = some (.num s.on) := by
  obtain ⟨a1, a2⟩ := offers_switch hs hx ho he fs m
  have hp : post ks m ⟨beta, true, fs⟩ = offers ks (excluded beta) fs m := rfl
  obtain ⟨b1, b2⟩ := offers_switch hs hx ho he gs (post ks m ⟨beta, true, fs⟩)
  obtain ⟨c1, _⟩ := finish_switch hs hx ho he hn (offers ks (excluded beta) gs (post ks m ⟨beta, true, fs⟩))
  show (finish (excluded beta) ks (offers ks (excluded beta) gs (post ks m ⟨beta, true, fs⟩))).store s.setting = _
  rw [c1, b2, b1, hp, a2, a1, h1, h2]
  simp

/-- The full claim: whatever posts came before, after a complete one of the page `/` a switch is as the form says. -/
def LastFormCounts : Prop := ∀ (ks : List Kind) (ps : List Post) (fs : List (Text × Text)) (e : Kind) (s : Switch), ks.Nodup →
  (∀ e ∈ ks, Own ks e) → e ∈ ks → switch e = some s →
  (posts ks fresh (ps ++ [⟨false, false, fs⟩])).store s.setting = some (.num (if lastValue s.field fs = some (str "on") then s.on else s.off))

theorem last_form_violation : ¬ LastFormCounts := fun h => by
  have h1 := h device [⟨false, true, [(str "night", str "on")]⟩] [] (.box (str "night")) ⟨str "night", str "night", 1, 0⟩
    (by decide +kernel) device_own (by decide +kernel) rfl
  revert h1
  decide +kernel

theorem posts_append (ks : List Kind) : ∀ (a b : List Post) (m : M), posts ks m (a ++ b) = posts ks (posts ks m a) b := by
  intro a
  induction a with
  | nil => intro b m; rfl
  | cons p r ih => intro b m; rw [List.cons_append, posts, posts, ih]

/-- Proved for histories without forms that break off. -/
theorem last_form_partial {ks : List Kind} {e : Kind} {s : Switch} (hs : switch e = some s) (ho : Own ks e) (he : e ∈ ks)
    (hn : ks.Nodup) (fs : List (Text × Text)) : ∀ (ps : List Post) (m : M), (∀ p ∈ ps, p.cut = false) → m.found s.field = false →
    (posts ks m (ps ++ [⟨false, false, fs⟩])).store s.setting = some (.num (if lastValue s.field fs = some (str "on") then s.on else s.off)) := by
  have hx : secOf e ≠ excluded false := by
    unfold switch at hs
    split at hs
    · simp [secOf, excluded]
    · simp [secOf, excluded]
    · simp [secOf, excluded]
    · cases hs
  intro ps
  induction ps with
  | nil => intro m _ hf; exact (switch_stored hs ho he hn false hx fs m hf).1
  | cons p r ih =>
    intro m hc hf
    rw [List.cons_append, posts]
    apply ih _ (fun q hq => hc q (List.mem_cons_of_mem _ hq))
    have hp : p.cut = false := hc p List.mem_cons_self
    obtain ⟨beta, cut, gs⟩ := p
    dsimp only at hp
    rw [hp]
    by_cases hb : secOf e = excluded beta
    · have hoff : ∀ (gs : List (Text × Text)) (m : M), m.found s.field = false → (offers ks (excluded beta) gs m).found s.field = false := by
        intro gs
        induction gs with
        | nil => intro m h; exact h
        | cons q t iht =>
          intro m h
          rw [offers]
          apply iht
          have : ∀ (l : List Kind) (m : M), (∀ e' ∈ l, e' ∈ ks) → m.found s.field = false → (offer (excluded beta) q.1 q.2 l m).found s.field = false := by
            intro l
            induction l with
            | nil => intro m _ h; exact h
            | cons a es iha =>
              intro m hl h
              have iha' := iha m (fun e' h' => hl e' (List.mem_cons_of_mem _ h')) h
              rw [offer]
              split
              · exact iha'
              · rename_i hne
                split
                · rename_i m' hm
                  by_cases hq : s.field = q.1
                  · have ha : a ≠ e := fun h' => hne (by rw [h']; exact hb)
                    rw [handle_none (by rw [← hq]; exact (ho a (hl a List.mem_cons_self) ha).1 _ (switch_names hs).1)] at hm
                    cases hm
                  · rw [handle_found hm hq]; exact h
                · exact iha'
          exact this ks m (fun _ h => h) h
      have hfi : ∀ (l : List Kind) (m : M), (∀ e' ∈ l, e' ∈ ks) → m.found s.field = false → (finish (excluded beta) l m).found s.field = false := by
        intro l
        induction l with
        | nil => intro m _ h; exact h
        | cons a es iha =>
          intro m hl h
          rw [finish]
          apply iha _ (fun e' h' => hl e' (List.mem_cons_of_mem _ h'))
          split
          · exact h
          · rename_i hne
            have ha : a ≠ e := fun h' => hne (by rw [h']; exact hb)
            rw [finishOne_found m a ((ho a (hl a List.mem_cons_self) ha).1 _ (switch_names hs).1)]
            exact h
      exact hfi ks _ (fun _ h => h) (hoff gs m hf)
    · exact (switch_stored hs ho he hn beta hb gs m hf).2

example : (posts device fresh [⟨false, false, [(str "night", str "on"), (str "eth_en", str "on")]⟩,
    ⟨false, false, [(str "wifi_en", str "on")]⟩]).store (str "night") = some (.num 0) := by decide +kernel

/-! ## Commands -/

/-- The event of the first command with exactly this text. -/
def eventFor (cmds : List (Text × Nat)) (v : Text) : List Nat := ((cmds.filter (fun c => c.1 = v)).map (fun c => c.2)).take 1

theorem first_event (cmds : List (Text × Nat)) (v : Text) : (first cmds v).toList = eventFor cmds v := by
  induction cmds with
  | nil => rfl
  | cons c r ih =>
    rw [first]
    by_cases h : c.1 = v
    · simp [h, eventFor]
    · rw [if_neg h, ih]; simp [h, eventFor]

theorem handle_log {m m' : M} {e : Kind} {k v : Text} (h : handle m e k v = some m') (he : ∀ t c, e ≠ .command t c) : m'.log = m.log := by
  cases e with
  | box t => simp [handle] at h; rw [← h.2]; rfl
  | eth => simp [handle] at h; rw [← h.2]; rfl
  | wifi b =>
    simp only [handle] at h
    split at h
    · injection h with h; rw [← h]; split <;> rfl
    · split at h
      · injection h with h; rw [← h]; split <;> rfl
      · split at h
        · injection h with h; rw [← h]; rfl
        · cases h
  | choice t vals n =>
    simp only [handle] at h
    split at h
    · cases hv : first vals v with
      | none => rw [hv] at h; cases h
      | some a => rw [hv] at h; injection h with h; rw [← h]; dsimp only; split <;> rfl
    · cases h
  | command t cmds => exact absurd rfl (he t cmds)
  | text t max =>
    simp only [handle] at h
    split at h
    · injection h with h; rw [← h]; split <;> rfl
    · cases h
  | updates =>
    simp only [handle] at h
    split at h
    · injection h with h; rw [← h]; rfl
    · cases h

theorem finishOne_log (m : M) (e : Kind) : (finishOne m e).log = m.log := by
  cases e with
  | box t => simp only [finishOne, setFound]; split <;> rfl
  | eth => simp only [finishOne, setFound]; split <;> rfl
  | wifi b => simp only [finishOne, setFound]; split <;> rfl
  | choice t vals n =>
    cases n
    · rfl
    · simp only [finishOne]; split <;> rfl
    · simp only [finishOne]; split <;> rfl
  | command t c => rfl
  | text t n => rfl
  | updates => rfl

theorem finish_log (ex : Section) : ∀ (ks : List Kind) (m : M), (finish ex ks m).log = m.log := by
  intro ks
  induction ks with
  | nil => intro m; rfl
  | cons e es ih => intro m; rw [finish, ih]; split <;> first | rfl | exact finishOne_log m e

theorem offer_log (k v : Text) {t : Text} {cmds : List (Text × Nat)} :
    ∀ (ks : List Kind) (m : M), Own ks (.command t cmds) → (∀ t' c', Kind.command t' c' ∈ ks → t' = t ∧ c' = cmds) → ks.Nodup →
    (offer .beta k v ks m).log = m.log ++ (if Kind.command t cmds ∈ ks ∧ k = t then eventFor cmds v else []) := by
  intro ks
  induction ks with
  | nil => intro m _ _ _; simp [offer]
  | cons a es ih =>
    intro m ho hu hn
    have hn' := List.nodup_cons.mp hn
    have ih' := ih m (fun e' h' => ho e' (List.mem_cons_of_mem _ h')) (fun t' c' h' => hu t' c' (List.mem_cons_of_mem _ h')) hn'.2
    by_cases ha : a = .command t cmds
    · rw [offer, ha, if_neg (by simp [secOf])]
      have hnot : Kind.command t cmds ∉ es := by rw [← ha]; exact hn'.1
      by_cases hk : k = t
      · rw [if_pos ⟨List.mem_cons_self, hk⟩, ← first_event]
        simp only [handle, hk, if_true]
        cases hf : first cmds v with
        | none =>
          rw [hk] at ih'
          rw [if_neg (fun h => hnot h.1)] at ih'
          simpa using ih'
        | some x => simp
      · rw [if_neg (fun h => hk h.2), handle_none (by simp [names, hk])]
        rw [if_neg (fun h => hk h.2)] at ih'
        exact ih'
    · have hmem : (Kind.command t cmds ∈ a :: es) ↔ Kind.command t cmds ∈ es := by
        rw [List.mem_cons]
        exact ⟨fun h => h.resolve_left (fun h' => ha h'.symm), Or.inr⟩
      rw [offer]
      simp only [hmem]
      split
      · exact ih'
      · split
        · rename_i m' hm
          have hnc : ∀ t' c', a ≠ .command t' c' := by
            intro t' c' h'
            obtain ⟨h1, h2⟩ := hu t' c' (by rw [h']; exact List.mem_cons_self)
            exact ha (by rw [h', h1, h2])
          rw [handle_log hm hnc]
          split
          · rename_i hc
            have hkt : k ∉ names a := by
              rw [hc.2]
              exact (ho a List.mem_cons_self ha).1 t (by simp [names])
            rw [handle_none hkt] at hm
            cases hm
          · simp
        · exact ih'

/-- The events run by a post to the page `/`: for each value of the command field, in order, that of the first command with
exactly this text, and none for any other text. -/
theorem commands_run {ks : List Kind} {t : Text} {cmds : List (Text × Nat)} (ho : Own ks (.command t cmds))
    (hm : Kind.command t cmds ∈ ks) (hu : ∀ t' c', Kind.command t' c' ∈ ks → t' = t ∧ c' = cmds) (hn : ks.Nodup) (cut : Bool)
    (fs : List (Text × Text)) (m : M) :
    (post ks m ⟨false, cut, fs⟩).log = m.log ++ fs.flatMap (fun p => if p.1 = t then eventFor cmds p.2 else []) := by
  have key : ∀ (fs : List (Text × Text)) (m : M), (offers ks .beta fs m).log = m.log ++ fs.flatMap (fun p => if p.1 = t then eventFor cmds p.2 else []) := by
    intro fs
    induction fs with
    | nil => intro m; simp [offers]
    | cons p r ih =>
      intro m
      rw [offers, ih, offer_log p.1 p.2 ks m ho hu hn]
      simp [hm]
  unfold post
  dsimp only
  have he : excluded false = .beta := rfl
  rw [he]
  split
  · exact key fs m
  · rw [finish_log]; exact key fs m

example : (post [.command (str "cmd") [(str "up", 1), (str "down", 2), (str "up", 3)]] fresh
    ⟨false, false, [(str "cmd", str "up"), (str "cmd", str "upp"), (str "cmd", str "down")]⟩).log = [1, 2] := by decide +kernel

/-! ## Noting changes -/

/-- The full claim: a post that leaves all settings notes no change for the server. -/
def NotedIfChanged : Prop := ∀ (ks : List Kind) (ps : List Post) (p : Post), ks.Nodup → (∀ e ∈ ks, Own ks e) →
  (∀ k, (post ks (posts ks fresh ps) p).store k = (posts ks fresh ps).store k) →
  (post ks (posts ks fresh ps) p).noted = (posts ks fresh ps).noted

theorem finishOne_noted (m : M) (e : Kind) : m.noted ≤ (finishOne m e).noted := by
  cases e with
  | box t => simp only [finishOne, setFound]; split <;> exact Nat.le_refl _
  | eth => simp only [finishOne, setFound]; split <;> exact Nat.le_refl _
  | wifi b => simp only [finishOne, setFound]; split <;> exact Nat.le_refl _
  | choice t vals n =>
    cases n
    · exact Nat.le_refl _
    · simp only [finishOne, setChanged]; split <;> simp
    · simp only [finishOne]; split <;> simp
  | command t c => exact Nat.le_refl _
  | text t n => exact Nat.le_refl _
  | updates => exact Nat.le_refl _

theorem finish_noted (ex : Section) : ∀ (ks : List Kind) (m : M), m.noted ≤ (finish ex ks m).noted := by
  intro ks
  induction ks with
  | nil => intro m; exact Nat.le_refl _
  | cons e es ih =>
    intro m
    rw [finish]
    refine Nat.le_trans ?_ (ih _)
    split
    · exact Nat.le_refl _
    · exact finishOne_noted m e

theorem handle_noted {m m' : M} {e : Kind} {k v : Text} (h : handle m e k v = some m') :
    m'.noted = m.noted ∧ ∀ t, m.changed t = true → m'.changed t = true := by
  cases e with
  | box t => simp [handle] at h; rw [← h.2]; exact ⟨rfl, fun t h => h⟩
  | eth => simp [handle] at h; rw [← h.2]; exact ⟨rfl, fun t h => h⟩
  | wifi b =>
    simp only [handle] at h
    split at h
    · injection h with h; rw [← h]; split <;> exact ⟨rfl, fun t h => h⟩
    · split at h
      · injection h with h; rw [← h]; split <;> exact ⟨rfl, fun t h => h⟩
      · split at h
        · injection h with h; rw [← h]; exact ⟨rfl, fun t h => h⟩
        · cases h
  | choice t vals n =>
    simp only [handle] at h
    split at h
    · cases hv : first vals v with
      | none => rw [hv] at h; cases h
      | some a =>
        rw [hv] at h; injection h with h; rw [← h]; dsimp only
        split
        · exact ⟨rfl, fun t h => h⟩
        · refine ⟨rfl, fun x hx => ?_⟩
          simp only [setChanged, put]
          split
          · rfl
          · exact hx
    · cases h
  | command t cmds =>
    simp only [handle] at h
    split at h
    · cases hv : first cmds v with
      | none => rw [hv] at h; cases h
      | some a => rw [hv] at h; injection h with h; rw [← h]; exact ⟨rfl, fun t h => h⟩
    · cases h
  | text t max =>
    simp only [handle] at h
    split at h
    · injection h with h; rw [← h]; split <;> exact ⟨rfl, fun t h => h⟩
    · cases h
  | updates =>
    simp only [handle] at h
    split at h
    · injection h with h; rw [← h]; exact ⟨rfl, fun t h => h⟩
    · cases h

theorem offer_noted (ex : Section) (k v : Text) : ∀ (ks : List Kind) (m : M),
    (offer ex k v ks m).noted = m.noted ∧ ∀ t, m.changed t = true → (offer ex k v ks m).changed t = true := by
  intro ks
  induction ks with
  | nil => intro m; exact ⟨rfl, fun t h => h⟩
  | cons e es ih =>
    intro m
    rw [offer]
    split
    · exact ih m
    · split
      · rename_i m' hm; exact handle_noted hm
      · exact ih m

theorem offers_noted (ex : Section) (ks : List Kind) : ∀ (fs : List (Text × Text)) (m : M),
    (offers ks ex fs m).noted = m.noted ∧ ∀ t, m.changed t = true → (offers ks ex fs m).changed t = true := by
  intro fs
  induction fs with
  | nil => intro m; exact ⟨rfl, fun t h => h⟩
  | cons p r ih =>
    intro m
    rw [offers]
    obtain ⟨h1, h2⟩ := offer_noted ex p.1 p.2 ks m
    obtain ⟨h3, h4⟩ := ih (offer ex p.1 p.2 ks m)
    exact ⟨by rw [h3, h1], fun t h => h4 t (h2 t h)⟩

theorem finishOne_changed (m : M) (e : Kind) {t : Text} (ht : t ∉ names e) : (finishOne m e).changed t = m.changed t := by
  cases e with
  | box t => simp only [finishOne, setFound]; split <;> rfl
  | eth => simp only [finishOne, setFound]; split <;> rfl
  | wifi b => simp only [finishOne, setFound]; split <;> rfl
  | choice u vals n =>
    simp [names] at ht
    cases n
    · simp [finishOne, setChanged, ht]
    · simp only [finishOne, setChanged, if_neg ht]; split <;> rfl
    · simp only [finishOne]; split <;> rfl
  | command t c => rfl
  | text t n => rfl
  | updates => rfl

theorem finish_changed (ex : Section) (t : Text) : ∀ (ks : List Kind) (m : M), (∀ e ∈ ks, t ∉ names e) →
    (finish ex ks m).changed t = m.changed t := by
  intro ks
  induction ks with
  | nil => intro m _; rfl
  | cons e es ih =>
    intro m h
    rw [finish, ih _ (fun e' he' => h e' (List.mem_cons_of_mem _ he'))]
    split
    · rfl
    · exact finishOne_changed m e (h e List.mem_cons_self)

/-- The content of the home screen, once changed, is noted as changed by every later post to the page `/`, whatever is in
it, until the device is started again. -/
theorem home_noted_again {ks : List Kind} {t : Text} {vals : List (Text × Int)} (ho : Own ks (.choice t vals .home))
    (he : Kind.choice t vals .home ∈ ks) (hn : ks.Nodup) (fs : List (Text × Text)) (m : M) (hc : m.changed t = true) :
    m.noted < (post ks m ⟨false, false, fs⟩).noted := by
  obtain ⟨a, b, hab⟩ := List.append_of_mem he
  have hna : ∀ e' ∈ a, t ∉ names e' := by
    intro e' h'
    have hne : e' ≠ .choice t vals .home := by
      intro heq
      rw [hab, List.nodup_append] at hn
      exact hn.2.2 e' h' _ List.mem_cons_self heq
    exact (ho e' (by rw [hab]; exact List.mem_append_left _ h') hne).1 t (by simp [names])
  obtain ⟨o1, o2⟩ := offers_noted .beta ks fs m
  have c1 : (finish .beta a (offers ks .beta fs m)).changed t = true := by rw [finish_changed _ _ a _ hna]; exact o2 t hc
  have n1 := finish_noted .beta a (offers ks .beta fs m)
  have hp : post ks m ⟨false, false, fs⟩ = finish .beta ks (offers ks .beta fs m) := rfl
  generalize offers ks .beta fs m = m1 at *
  have hf : finishOne (finish .beta a m1) (.choice t vals .home) =
      { finish .beta a m1 with noted := (finish .beta a m1).noted + 1 } := by rw [finishOne, if_pos c1]
  have n2 := finish_noted .beta b (finishOne (finish .beta a m1) (.choice t vals .home))
  have n3 : (finishOne (finish .beta a m1) (.choice t vals .home)).noted = (finish .beta a m1).noted + 1 := by rw [hf]
  have hl : finish .beta ks m1 = finish .beta b (finishOne (finish .beta a m1) (.choice t vals .home)) := by
    rw [hab, finish_append, finish, if_neg (by simp [secOf])]
  rw [hp, hl]
  omega

theorem noted_violation : ¬ NotedIfChanged := fun h => by
  have h1 := h [.choice (str "home") [(str "None", 0), (str "Time", 3)] .home] [⟨false, false, [(str "home", str "Time")]⟩]
    ⟨false, false, []⟩ (by decide +kernel) (by unfold Own; decide +kernel) (by
      intro k
      generalize posts _ fresh _ = m
      have e : post [.choice (str "home") [(str "None", 0), (str "Time", 3)] .home] m ⟨false, false, []⟩ =
        finishOne m (.choice (str "home") [(str "None", 0), (str "Time", 3)] .home) := rfl
      rw [e, finishOne_plain m rfl])
  revert h1
  decide +kernel

theorem finishOne_quiet (m : M) {e : Kind} (h : ∀ t vals n, e = .choice t vals n → m.changed t = false) :
    (finishOne m e).noted = m.noted := by
  cases e with
  | box t => simp only [finishOne, setFound]; split <;> rfl
  | eth => simp only [finishOne, setFound]; split <;> rfl
  | wifi b => simp only [finishOne, setFound]; split <;> rfl
  | choice t vals n =>
    have := h t vals n rfl
    cases n <;> simp [finishOne, setChanged, this]
  | command t c => rfl
  | text t n => rfl
  | updates => rfl

theorem finishOne_unchanged (m : M) (e : Kind) (t : Text) (h : m.changed t = false) : (finishOne m e).changed t = false := by
  cases e with
  | box t => simp only [finishOne, setFound]; split <;> exact h
  | eth => simp only [finishOne, setFound]; split <;> exact h
  | wifi b => simp only [finishOne, setFound]; split <;> exact h
  | choice u vals n =>
    cases n
    · simp only [finishOne, setChanged]; split
      · rfl
      · exact h
    · simp only [finishOne, setChanged]; split
      · rfl
      · split <;> exact h
    · simp only [finishOne]; split <;> exact h
  | command t c => exact h
  | text t n => exact h
  | updates => exact h

/-- A choice that is no home screen forgets its change at the end of the post that made it. -/
theorem change_forgotten {ks : List Kind} {t : Text} {vals : List (Text × Int)} {n : Notes} (hn : n ≠ .home)
    (he : Kind.choice t vals n ∈ ks) (fs : List (Text × Text)) (m : M) : (post ks m ⟨false, false, fs⟩).changed t = false := by
  have keep : ∀ (l : List Kind) (m : M), m.changed t = false → (finish .beta l m).changed t = false := by
    intro l
    induction l with
    | nil => intro m h; exact h
    | cons e es ih =>
      intro m h
      rw [finish]
      apply ih
      split
      · exact h
      · exact finishOne_unchanged m e t h
  obtain ⟨a, b, hab⟩ := List.append_of_mem he
  show (finish .beta ks (offers ks .beta fs m)).changed t = false
  generalize offers ks .beta fs m = m1
  rw [hab, finish_append, finish, if_neg (by simp [secOf])]
  apply keep
  cases n with
  | home => exact absurd rfl hn
  | never => simp [finishOne, setChanged]
  | once => simp [finishOne, setChanged]

/-- With no change left over, a form without the field of a choice notes nothing. -/
theorem noted_partial (ks : List Kind) (m : M) (fs : List (Text × Text)) (hm : ∀ t, m.changed t = false)
    (hf : ∀ t vals n, Kind.choice t vals n ∈ ks → lastValue t fs = none) (cut : Bool) : (post ks m ⟨false, cut, fs⟩).noted = m.noted := by
  have hof : ∀ (l : List Kind) (k v : Text) (m : M), (∀ t vals n, Kind.choice t vals n ∈ l → t ≠ k) →
      (∀ t, m.changed t = false) → ∀ t, (offer .beta k v l m).changed t = false := by
    intro l
    induction l with
    | nil => intro k v m _ h; exact h
    | cons e es ih =>
      intro k v m hl h
      have ih' := ih k v m (fun t vals n h' => hl t vals n (List.mem_cons_of_mem _ h')) h
      rw [offer]
      split
      · exact ih'
      · cases hh : handle m e k v with
        | none => exact ih'
        | some m' =>
          dsimp only
          intro x
          cases e with
          | choice t vals n =>
            have := hl t vals n List.mem_cons_self
            rw [handle, if_neg (fun h => this h.symm)] at hh
            cases hh
          | box t => simp [handle] at hh; rw [← hh.2]; exact h x
          | eth => simp [handle] at hh; rw [← hh.2]; exact h x
          | wifi b =>
            simp only [handle] at hh
            split at hh
            · injection hh with hh; rw [← hh]; split <;> exact h x
            · split at hh
              · injection hh with hh; rw [← hh]; split <;> exact h x
              · split at hh
                · injection hh with hh; rw [← hh]; exact h x
                · cases hh
          | command t cmds =>
            simp only [handle] at hh
            split at hh
            · cases hv : first cmds v with
              | none => rw [hv] at hh; cases hh
              | some a => rw [hv] at hh; injection hh with hh; rw [← hh]; exact h x
            · cases hh
          | text t max =>
            simp only [handle] at hh
            split at hh
            · injection hh with hh; rw [← hh]; split <;> exact h x
            · cases hh
          | updates =>
            simp only [handle] at hh
            split at hh
            · injection hh with hh; rw [← hh]; exact h x
            · cases hh
  have hofs : ∀ (fs : List (Text × Text)) (m : M), (∀ t vals n, Kind.choice t vals n ∈ ks → ∀ p ∈ fs, p.1 ≠ t) →
      (∀ t, m.changed t = false) → ∀ t, (offers ks .beta fs m).changed t = false := by
    intro fs
    induction fs with
    | nil => intro m _ h; exact h
    | cons p r ih =>
      intro m hp h
      rw [offers]
      exact ih _ (fun t vals n h' q hq => hp t vals n h' q (List.mem_cons_of_mem _ hq))
        (hof ks p.1 p.2 m (fun t vals n h' hc => hp t vals n h' p List.mem_cons_self hc.symm) h)
  have hfi : ∀ (l : List Kind) (m : M), (∀ t, m.changed t = false) → (finish .beta l m).noted = m.noted := by
    intro l
    induction l with
    | nil => intro m _; rfl
    | cons e es ih =>
      intro m h
      rw [finish]
      split
      · exact ih m h
      · rw [ih _ (fun t => finishOne_unchanged m e t (h t)), finishOne_quiet m (fun t _ _ _ => h t)]
  have o1 := (offers_noted .beta ks fs m).1
  have o2 := hofs fs m (fun t vals n h' => lastValue_none (hf t vals n h')) hm
  have he : excluded false = .beta := rfl
  unfold post
  dsimp only
  rw [he]
  split
  · exact o1
  · rw [hfi ks _ o2]; exact o1

example : (post [.choice (str "ct") [(str "100A", 1)] .once] fresh ⟨false, false, [(str "ct", str "100A")]⟩).noted = 1 := by decide +kernel

/-! ## Tags -/

/-- The tag of a switch or a choice is a proper text only up to 15 characters; the cut of longer ones leaves it without an
end. -/
theorem tag_ends_iff (t : Text) (hz : 0 ∉ t) : 0 ∈ tagBuffer t ↔ t.length ≤ 15 := by
  unfold tagBuffer
  constructor
  · intro h
    apply Classical.byContradiction
    intro hl
    have hm : min t.length 15 = 15 := by omega
    rw [hm, List.take_append_of_le_length (by omega)] at h
    exact hz (List.mem_of_mem_take h)
  · intro h
    have hm : min t.length 15 = t.length := by omega
    rw [hm, List.take_append]
    apply List.mem_append_right
    rw [show t.length + 1 - t.length = 1 by omega, List.replicate_succ]
    simp

example : 0 ∉ tagBuffer (str "night_brightness") ∧ 0 ∈ tagBuffer (str "night") := by decide +kernel

end Verif.Pages
