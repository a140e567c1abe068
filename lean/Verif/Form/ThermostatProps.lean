import Verif.Form.Thermostat

/-!
# C97: saving the page of a thermostat
-/

namespace Verif.Form
open Verif.Tools
open Verif.Hvac.Mode (unset w16 Val)
open Verif.Hvac.Config (Cfg Fld Temps get put roOf fixRo valid applyTemps repair)

/-! ## Lists -/

/-- If something is marked, and everything marked has the same text, that text comes back. -/
theorem shown_same (os : List (List Nat × Bool)) (w : List Nat) (he : ∃ o ∈ os, o.2 = true) (ha : ∀ o ∈ os, o.2 = true → o.1 = w) :
    shown os = some w := by
  obtain ⟨o, ho, hm⟩ := he
  unfold shown
  have hne : os.filter (·.2) ≠ [] := by
    intro hc
    rw [List.filter_eq_nil_iff] at hc
    exact hc o ho hm
  rw [List.getLast?_eq_some_getLast hne]
  have h1 := List.mem_filter.mp (List.getLast_mem hne)
  show some ((os.filter (·.2)).getLast hne).1 = some w
  rw [ha _ h1.1 h1.2]

theorem choice_shown (v : Int) (ns : List Int) (h : v ∈ ns) : (choice v ns).untouched = some (wholeText v) := shown_number ns v h

theorem chan_set (num : Int) (ns : List Int) (h : num ∈ ns) : (chanChoice 1 num ns).untouched = some (wholeText num) := by
  show shown _ = _
  apply shown_same
  · exact ⟨option num true, List.mem_cons_of_mem _ (List.mem_map.mpr ⟨num, h, by simp⟩), rfl⟩
  · intro o ho hm
    rcases List.mem_cons.mp ho with rfl | ho
    · simp [option] at hm
    · obtain ⟨n, _, rfl⟩ := List.mem_map.mp ho
      have : num = n := of_decide_eq_true hm
      rw [this]; rfl

theorem chan_none (num : Int) (ns : List Int) (h : num ∉ ns) : (chanChoice 0 num ns).untouched = some (wholeText (-1)) := by
  show shown (option (-1) true :: ns.map (fun n => option n (decide (num = n)))) = _
  apply shown_same
  · exact ⟨option (-1) true, List.mem_cons_self, rfl⟩
  · intro o ho hm
    rcases List.mem_cons.mp ho with rfl | ho
    · rfl
    · obtain ⟨n, hn, rfl⟩ := List.mem_map.mp ho
      have : num = n := of_decide_eq_true hm
      exact absurd (this ▸ hn) h

/-! ## Temperatures -/

theorem unsigned_no_minus (l : List Nat) (h : 45 ∈ l) : unsigned l = false := by
  have hd : ∀ m : List Nat, 45 ∈ m → digits m = false := by
    intro m hm
    unfold digits
    have : m.all (fun c => decide (48 ≤ c ∧ c ≤ 57)) = false := by
      rw [List.all_eq_false]
      exact ⟨45, hm, by simp⟩
    rw [this, Bool.and_false]
  unfold unsigned
  rw [hd l h, Bool.false_or]
  have hl : 45 ∈ l.takeWhile (· != 46) ++ l.dropWhile (· != 46) := by rw [List.takeWhile_append_dropWhile]; exact h
  rcases List.mem_append.mp hl with h1 | h1
  · rw [hd _ h1, Bool.false_and]
  · cases hw : l.dropWhile (· != 46) with
    | nil => rw [hw] at h1; cases h1
    | cons a r =>
      have ha : a = 46 := by
        have := List.head?_dropWhile_not (fun c : Nat => c != 46) l
        rw [hw] at this
        simpa using this
      rw [hw, ha] at h1
      have h2 : 45 ∈ r := by
        rcases List.mem_cons.mp h1 with h3 | h3
        · exact absurd h3 (by decide)
        · exact h3
      rw [List.drop_succ_cons, List.drop_zero, hd _ h2, Bool.and_false]

theorem isNumber_no_minus (l : List Nat) (h : 45 ∈ l.tail) : isNumber l = false := by
  cases l with
  | nil => cases h
  | cons c r =>
    show (if c = 45 then unsigned r else unsigned (c :: r)) = false
    split
    · exact unsigned_no_minus r h
    · exact unsigned_no_minus _ (List.mem_cons_of_mem _ h)

/-- A text of a temperature that is either no number or read as tenths of it. -/
def Faithful (w : List Nat) (t : Int) : Prop := isNumber w = true → floatStringToInt 1 w = .val (t / 10)

theorem digitText (d : Nat) (h : d < 10) : decimalText d = [48 + d] := by
  have : ∀ d < 10, decimalText d = [48 + d] := by decide
  exact this d h

theorem wholeText_ne (n : Int) : wholeText n ≠ [] := by
  unfold wholeText
  split
  · simp
  · exact decimalText_ne _

theorem split_faithful (t : Int) (h10 : t % 10 = 0) (hb : t.natAbs ≤ 32768) : Faithful (splitText t) t := by
  intro hn
  by_cases h0 : 0 ≤ t
  · obtain ⟨m, hm⟩ : ∃ m : Nat, t = 10 * m := ⟨(t / 10).toNat, by omega⟩
    have e1 : Int.tdiv t 100 = ((m / 10 : Nat) : Int) := by rw [Int.tdiv_eq_ediv_of_nonneg h0]; omega
    have e2 : Int.tmod (Int.tdiv t 10) 10 = ((m % 10 : Nat) : Int) := by
      rw [Int.tdiv_eq_ediv_of_nonneg h0, Int.tmod_eq_emod_of_nonneg (by omega)]; omega
    have et : splitText t = plainText 1 m := by
      unfold splitText plainText
      rw [e1, e2, if_neg (by decide)]
      have w1 : wholeText ((m / 10 : Nat) : Int) = decimalText (m / 10) := by
        unfold wholeText; rw [if_neg (by omega)]; rfl
      have w2 : wholeText ((m % 10 : Nat) : Int) = decimalText (m % 10) := by
        unfold wholeText; rw [if_neg (by omega)]; rfl
      rw [w1, w2, digitText _ (Nat.mod_lt _ (by decide))]
      rfl
    rw [et]
    have := (plainText_read 1 1 m (by omega) (by omega)).1
    rw [show (1 : Int) = ((1 : Nat) : Int) from rfl] at *
    rw [this]
    congr 1
    omega
  · obtain ⟨m, hm⟩ : ∃ m : Nat, t = -(10 * m : Nat) := ⟨(-t / 10).toNat, by omega⟩
    have e1 : Int.tdiv t 100 = -((m / 10 : Nat) : Int) := by
      rw [hm, Int.neg_tdiv, Int.tdiv_eq_ediv_of_nonneg (by omega)]; omega
    have e2 : Int.tmod (Int.tdiv t 10) 10 = -((m % 10 : Nat) : Int) := by
      rw [hm, Int.neg_tdiv, Int.tdiv_eq_ediv_of_nonneg (by omega), Int.neg_tmod, Int.tmod_eq_emod_of_nonneg (by omega)]; omega
    by_cases hz : m % 10 = 0
    · have et : splitText t = 45 :: plainText 1 m := by
        unfold splitText plainText
        rw [e1, e2, if_neg (by decide), hz]
        have w1 : wholeText (-((m / 10 : Nat) : Int)) = 45 :: decimalText (m / 10) := by
          unfold wholeText; rw [if_pos (by omega), show (-((m / 10 : Nat) : Int)).natAbs = m / 10 from by omega]
        rw [w1]
        show (45 :: decimalText (m / 10)) ++ 46 :: [48] = 45 :: (decimalText (m / 10 ^ 1) ++ 46 :: [48 + m % 10])
        rw [hz]
        simp
      rw [et]
      have := (plainText_read 1 1 m (by omega) (by omega)).2
      rw [show (1 : Int) = ((1 : Nat) : Int) from rfl] at *
      rw [this]
      congr 1
      omega
    · exfalso
      have hmin : 45 ∈ (splitText t).tail := by
        unfold splitText
        rw [e2]
        have w2 : wholeText (-((m % 10 : Nat) : Int)) = 45 :: decimalText (m % 10) := by
          unfold wholeText; rw [if_pos (by omega), show (-((m % 10 : Nat) : Int)).natAbs = m % 10 from by omega]
        rw [w2]
        cases hw : wholeText (Int.tdiv t 100) with
        | nil => exact absurd hw (wholeText_ne _)
        | cons a r => simp
      rw [isNumber_no_minus _ hmin] at hn
      cases hn

theorem tenths_faithful (P : Printf) (t : Int) (h10 : t % 10 = 0) (hb : t.natAbs ≤ 32768) : Faithful (tenths P t) t := by
  intro _
  obtain ⟨m, hm, h1, _⟩ := tenths_read P t (by omega)
  rw [h1]
  congr 1
  omega

/-- A temperature that comes back is the same one. -/
theorem temp_back (txt : Int → List Nat) (t : Int) (hf : t ≠ unset → Faithful (txt t) t) (h10 : t ≠ unset → t % 10 = 0)
    (hb : -32768 ≤ t ∧ t ≤ 32767) (d : Draft) (f : Int → Draft) (w : List Nat)
    (hw : (Control.number (tempText txt t)).untouched = some w) : tempTake w d f = some d ∨ (t ≠ unset ∧ tempTake w d f = some (f t)) := by
  have hw := Option.some.inj hw
  subst hw
  by_cases hu : t = unset
  · left
    unfold tempText
    rw [if_pos hu]
    rfl
  · unfold tempText
    rw [if_neg hu]
    by_cases hn : isNumber (txt t) = true
    · right
      refine ⟨hu, ?_⟩
      rw [if_pos hn]
      unfold tempTake
      have hne : txt t ≠ [] := by intro hc; rw [hc] at hn; cases hn
      rw [if_neg hne, hf hu hn]
      show some (f (w16 (w16 (t / 10) * 10))) = some (f t)
      have := h10 hu
      have e1 : w16 (t / 10) = t / 10 := by unfold w16; omega
      rw [e1]
      have e2 : w16 (t / 10 * 10) = t := by unfold w16; omega
      rw [e2]
    · left
      rw [if_neg hn]
      rfl

/-! ## The fields one after another -/

/-- From `I` to `J` by a part of the page. -/
def Moves (I J : Draft → Prop) (l : List (Field TKey)) : Prop :=
  ∀ d, I d → ∃ d', handleAll thermoTake d (submitted l) = some d' ∧ J d'

theorem Moves.append {I J K : Draft → Prop} {a b : List (Field TKey)} (h1 : Moves I J a) (h2 : Moves J K b) : Moves I K (a ++ b) := by
  intro d hd
  obtain ⟨d1, e1, hd1⟩ := h1 d hd
  obtain ⟨d2, e2, hd2⟩ := h2 d1 hd1
  refine ⟨d2, ?_, hd2⟩
  unfold handleAll submitted at *
  rw [List.filterMap_append, List.foldlM_append]
  show Option.bind _ _ = _
  rw [e1]
  exact e2

theorem moves_opt {I J : Draft → Prop} (c : Bool) (f : Field TKey)
    (hpost : c = true → f.disabled = false → ∀ t, f.control.untouched = some t → ∀ d, I d → ∃ d', thermoTake f.name t d = some d' ∧ J d')
    (hskip : c = false ∨ f.disabled = true ∨ f.control.untouched = none → ∀ d, I d → J d) : Moves I J (opt c f) := by
  intro d hd
  unfold opt
  cases c with
  | false => exact ⟨d, rfl, hskip (Or.inl rfl) d hd⟩
  | true =>
    rw [if_pos rfl]
    cases hdis : f.disabled with
    | true =>
      refine ⟨d, ?_, hskip (Or.inr (Or.inl hdis)) d hd⟩
      simp [handleAll, submitted, hdis]
    | false =>
      cases ht : f.control.untouched with
      | none =>
        refine ⟨d, ?_, hskip (Or.inr (Or.inr ht)) d hd⟩
        simp [handleAll, submitted, hdis, ht]
      | some t =>
        obtain ⟨d', e, hd'⟩ := hpost rfl hdis t ht d hd
        refine ⟨d', ?_, hd'⟩
        simp [handleAll, submitted, hdis, ht, e]

/-- What holds of the copy while the fields come back: settings that are not read-only are the thermostat's, check boxes
that did not come yet are off; temperatures and set points are the thermostat's; `M` holds of the mode. -/
def Inv (S : Page) (s : Thermo) (pending : Fld → Bool) (M : Nat → Prop) (d : Draft) : Prop :=
  (∀ x, roOf S.e x = true ∨ d.cfg.f x = if pending x then 0 else s.cfg.f x) ∧ d.cfg.t = s.cfg.t ∧
  d.v = { s.st.v with mode := d.v.mode } ∧ M d.v.mode

/-- `x` has come. -/
def clear (p : Fld → Bool) (x : Fld) : Fld → Bool := fun y => if y = x then false else p y

theorem clear_same (p : Fld → Bool) (x : Fld) : clear p x x = false := if_pos rfl
theorem clear_other (p : Fld → Bool) (x y : Fld) (h : y ≠ x) : clear p x y = p y := if_neg h

theorem Inv.set {S : Page} {s : Thermo} {p : Fld → Bool} {M : Nat → Prop} {d : Draft} (h : Inv S s p M d) (x : Fld) (n : Int)
    (hn : n = s.cfg.f x) (hp : p x = false) : Inv S s p M (d.set x n) := by
  refine ⟨fun y => ?_, h.2⟩
  by_cases hy : y = x
  · right
    subst hy
    show (if y = y then n else _) = _
    rw [if_pos rfl, hp, hn]
    rfl
  · have := h.1 y
    have e : (d.set x n).cfg.f y = d.cfg.f y := if_neg hy
    rw [e]
    exact this

theorem Inv.box {S : Page} {s : Thermo} {p : Fld → Bool} {M : Nat → Prop} {d : Draft} (h : Inv S s p M d) (x : Fld)
    (hn : roOf S.e x = true ∨ d.cfg.f x = s.cfg.f x) : Inv S s (clear p x) M d := by
  refine ⟨fun y => ?_, h.2⟩
  by_cases hy : y = x
  · subst hy
    rcases hn with hn | hn
    · exact Or.inl hn
    · right; rw [clear_same, hn]; rfl
  · have := h.1 y
    rw [clear_other _ _ _ hy]
    exact this

/-! ## Each field -/

section Fields
variable (S : Page) (s : Thermo) (p : Fld → Bool) (M : Nat → Prop)

theorem byte_back (v : Int) (h0 : 0 ≤ v) (h1 : v ≤ 255) : ((stringToUInt (wholeText v) % 256 : Nat) : Int) = v := by
  have hu := wholeText_uint v.toNat (by omega)
  rw [show ((v.toNat : Nat) : Int) = v from by omega] at hu
  rw [hu]; omega

/-- A list of channel numbers or types. -/
theorem moves_choice (c : Bool) (x : Fld) (dis : Bool) (ns : List Int)
    (hx : x = .main ∨ x = .aux ∨ x = .auxType ∨ x = .bin) (hp : p x = false) (hr : 0 ≤ s.cfg.f x ∧ s.cfg.f x ≤ 255)
    (hin : c = true → dis = false → s.cfg.f x ∈ ns) :
    Moves (Inv S s p M) (Inv S s p M) (opt c ⟨.fld x, dis, choice (s.cfg.f x) ns⟩) := by
  apply moves_opt
  · intro hc hd t ht d hI
    have ht : (choice (s.cfg.f x) ns).untouched = some t := ht
    rw [choice_shown _ _ (hin hc hd)] at ht
    have ht := Option.some.inj ht
    subst ht
    refine ⟨d.set x (s.cfg.f x), ?_, hI.set x _ rfl hp⟩
    rcases hx with rfl | rfl | rfl | rfl
    all_goals
      show some (d.set _ _) = _
      rw [byte_back _ hr.1 hr.2]
  · exact fun _ d h => h

theorem moves_subfn (c dis : Bool) (hp : p .subfn = false) (hin : c = true → dis = false → s.cfg.f .subfn ∈ [1, 2]) :
    Moves (Inv S s p M) (Inv S s p M) (opt c ⟨.fld .subfn, dis, choice (s.cfg.f .subfn) [1, 2]⟩) := by
  apply moves_opt
  · intro hc hd t ht d hI
    have hm := hin hc hd
    have ht : (choice (s.cfg.f .subfn) [1, 2]).untouched = some t := ht
    rw [choice_shown _ _ hm] at ht
    have ht := Option.some.inj ht
    subst ht
    refine ⟨d.set .subfn (s.cfg.f .subfn), ?_, hI.set _ _ rfl hp⟩
    have hm : s.cfg.f .subfn = 1 ∨ s.cfg.f .subfn = 2 := by simpa using hm
    show some (if stringToUInt (wholeText (s.cfg.f .subfn)) ≤ 2 then d.set .subfn (stringToUInt (wholeText (s.cfg.f .subfn)) : Nat) else d) = _
    rcases hm with hm | hm
    · rw [hm]; rfl
    · rw [hm]; rfl
  · exact fun _ d h => h

theorem moves_alg (c dis : Bool) (ns : List Int) (hp : p .alg = false) (hr : 0 ≤ s.cfg.f .alg ∧ s.cfg.f .alg ≤ 65535)
    (hin : c = true → dis = false → s.cfg.f .alg ∈ ns) :
    Moves (Inv S s p M) (Inv S s p M) (opt c ⟨.fld .alg, dis, choice (s.cfg.f .alg) ns⟩) := by
  apply moves_opt
  · intro hc hd t ht d hI
    have ht : (choice (s.cfg.f .alg) ns).untouched = some t := ht
    rw [choice_shown _ _ (hin hc hd)] at ht
    have ht := Option.some.inj ht
    subst ht
    refine ⟨d.set .alg (s.cfg.f .alg), ?_, hI.set _ _ rfl hp⟩
    have hu := wholeText_uint (s.cfg.f .alg).toNat (by omega)
    rw [show (((s.cfg.f .alg).toNat : Nat) : Int) = s.cfg.f .alg from by omega] at hu
    show some (d.set .alg ((stringToUInt (wholeText (s.cfg.f .alg)) % 65536 : Nat) : Int)) = _
    rw [hu, show (((s.cfg.f .alg).toNat % 65536 : Nat) : Int) = s.cfg.f .alg from by omega]
  · exact fun _ d h => h

theorem moves_onError (c dis : Bool) (hp : p .onError = false) (hin : c = true → dis = false → s.cfg.f .onError ∈ [0, 100, -100]) :
    Moves (Inv S s p M) (Inv S s p M) (opt c ⟨.fld .onError, dis, choice (s.cfg.f .onError) [0, 100, -100]⟩) := by
  apply moves_opt
  · intro hc hd t ht d hI
    have hm := hin hc hd
    have ht : (choice (s.cfg.f .onError) [0, 100, -100]).untouched = some t := ht
    rw [choice_shown _ _ hm] at ht
    have ht := Option.some.inj ht
    subst ht
    refine ⟨d.set .onError (s.cfg.f .onError), ?_, hI.set _ _ rfl hp⟩
    have hm : s.cfg.f .onError = 0 ∨ s.cfg.f .onError = 100 ∨ s.cfg.f .onError = -100 := by simpa using hm
    show (if wholeText (s.cfg.f .onError) = [] then some d else
      (ofRes (stringToInt (wholeText (s.cfg.f .onError)))).map fun n => d.set .onError ((n + 128) % 256 - 128)) = _
    rw [if_neg (wholeText_ne _), wholeText_read _ (by omega)]
    show some (d.set .onError ((s.cfg.f .onError + 128) % 256 - 128)) = _
    rw [show (s.cfg.f .onError + 128) % 256 - 128 = s.cfg.f .onError from by omega]
  · exact fun _ d h => h

theorem moves_time (c : Bool) (x : Fld) (hx : x = .minOn ∨ x = .minOff) (hp : p x = false) (hr : 0 ≤ s.cfg.f x ∧ s.cfg.f x ≤ 65535) :
    Moves (Inv S s p M) (Inv S s p M) (opt c ⟨.fld x, false, .number (wholeText (s.cfg.f x))⟩) := by
  apply moves_opt
  · intro hc hd t ht d hI
    have ht : (Control.number (wholeText (s.cfg.f x))).untouched = some t := ht
    rw [number_untouched _ (wholeText_isNumber _)] at ht
    have ht := Option.some.inj ht
    subst ht
    refine ⟨d.set x (s.cfg.f x), ?_, hI.set _ _ rfl hp⟩
    have key : thermoTake (.fld x) (wholeText (s.cfg.f x)) d = (ofRes (stringToInt (wholeText (s.cfg.f x)))).map (fun n => d.set x (n % 65536)) := by
      rcases hx with rfl | rfl <;> rfl
    rw [key, wholeText_read _ (by omega)]
    show some (d.set x (s.cfg.f x % 65536)) = _
    rw [show s.cfg.f x % 65536 = s.cfg.f x from by omega]
  · exact fun _ d h => h

/-- A channel, or none and then 0 and not an offered number. -/
def ChanOk (isSet num : Int) (ns : List Int) : Prop :=
  (isSet = 1 ∧ num ∈ ns ∧ 0 ≤ num ∧ num ≤ 255) ∨ (isSet = 0 ∧ num = 0 ∧ num ∉ ns)

theorem moves_chan (c : Bool) (a x : Fld) (dis : Bool) (ns : List Int)
    (hx : (a = .masterSet ∧ x = .master) ∨ (a = .pumpSet ∧ x = .pump) ∨ (a = .srcSet ∧ x = .src)) (hp : p x = false) (hpa : p a = false)
    (hin : c = true → dis = false → ChanOk (s.cfg.f a) (s.cfg.f x) ns) :
    Moves (Inv S s p M) (Inv S s p M) (opt c ⟨.fld x, dis, chanChoice (s.cfg.f a) (s.cfg.f x) ns⟩) := by
  apply moves_opt
  · intro hc hd t ht d hI
    have ht : (chanChoice (s.cfg.f a) (s.cfg.f x) ns).untouched = some t := ht
    have key : ∀ n, stringToInt t = .val n → thermoTake (.fld x) t d = some (d.setChan a x n) := by
      intro n hn
      rcases hx with ⟨rfl, rfl⟩ | ⟨rfl, rfl⟩ | ⟨rfl, rfl⟩
      all_goals
        show (ofRes (stringToInt t)).map _ = _
        rw [hn]
        rfl
    rcases hin hc hd with ⟨h1, h2, h3, h4⟩ | ⟨h1, h2, h3⟩
    · rw [h1, chan_set _ _ h2] at ht
      have ht := Option.some.inj ht
      have hr := wholeText_read (s.cfg.f x) (by omega)
      rw [ht] at hr
      refine ⟨_, key _ hr, ?_⟩
      unfold Draft.setChan
      rw [if_pos ⟨h3, h4⟩]
      exact (hI.set x _ rfl hp).set a _ h1.symm hpa
    · rw [h1, chan_none _ _ h3] at ht
      have ht := Option.some.inj ht
      have hr := wholeText_read (-1) (by decide)
      rw [ht] at hr
      refine ⟨_, key _ hr, ?_⟩
      unfold Draft.setChan
      rw [if_neg (by decide)]
      exact (hI.set x _ h2.symm hp).set a _ h1.symm hpa
  · exact fun _ d h => h

/-- A temperature of the table. -/
theorem moves_temp (txt : Int → List Nat) (c : Bool) (k : Nat) (hf : get s.cfg.t k ≠ unset → Faithful (txt (get s.cfg.t k)) (get s.cfg.t k))
    (h10 : get s.cfg.t k ≠ unset → get s.cfg.t k % 10 = 0) (hb : -32768 ≤ get s.cfg.t k ∧ get s.cfg.t k ≤ 32767) :
    Moves (Inv S s p M) (Inv S s p M) (opt c ⟨.temp k, false, .number (tempText txt (get s.cfg.t k))⟩) := by
  apply moves_opt
  · intro hc hd t ht d hI
    rcases temp_back txt _ hf h10 hb d (fun n => { d with cfg := { d.cfg with t := Hvac.Config.put d.cfg.t k n } }) t ht with h | ⟨hu, h⟩
    · exact ⟨d, h, hI⟩
    · refine ⟨_, h, hI.1, ?_, hI.2.2⟩
      show Hvac.Config.put d.cfg.t k (get s.cfg.t k) = s.cfg.t
      rw [hI.2.1]
      funext j
      unfold Hvac.Config.put
      split
      · rename_i hj
        rw [hj, Hvac.Config.some_of_get _ _ hu]
      · rfl
  · exact fun _ d h => h

/-- The set point for heating. -/
theorem moves_heat (txt : Int → List Nat) (c : Bool) (hf : s.st.spHeat ≠ unset → Faithful (txt s.st.spHeat) s.st.spHeat)
    (h10 : s.st.spHeat ≠ unset → s.st.spHeat % 10 = 0) (hb : -32768 ≤ s.st.spHeat ∧ s.st.spHeat ≤ 32767) :
    Moves (Inv S s p M) (Inv S s p M) (opt c ⟨.heat, false, .number (tempText txt s.st.spHeat)⟩) := by
  apply moves_opt
  · intro hc hd t ht d hI
    rcases temp_back txt _ hf h10 hb d (fun n => { d with v := { d.v with heat := n, heatSet := true } }) t ht with h | ⟨hu, h⟩
    · exact ⟨d, h, hI⟩
    · refine ⟨_, h, hI.1, hI.2.1, ?_, hI.2.2.2⟩
      have hset : s.st.v.heatSet = true := by
        cases hs : s.st.v.heatSet with
        | true => rfl
        | false => exact absurd (show s.st.spHeat = unset by unfold Hvac.Mode.St.spHeat; rw [hs]; rfl) hu
      have he : s.st.spHeat = s.st.v.heat := by unfold Hvac.Mode.St.spHeat; rw [hset]; rfl
      have hv := hI.2.2.1
      rw [he]
      generalize d.v.mode = m at *
      rw [hv, ← hset]
  · exact fun _ d h => h

/-- The set point for cooling. -/
theorem moves_cool (txt : Int → List Nat) (c : Bool) (hf : s.st.spCool ≠ unset → Faithful (txt s.st.spCool) s.st.spCool)
    (h10 : s.st.spCool ≠ unset → s.st.spCool % 10 = 0) (hb : -32768 ≤ s.st.spCool ∧ s.st.spCool ≤ 32767) :
    Moves (Inv S s p M) (Inv S s p M) (opt c ⟨.cool, false, .number (tempText txt s.st.spCool)⟩) := by
  apply moves_opt
  · intro hc hd t ht d hI
    rcases temp_back txt _ hf h10 hb d (fun n => { d with v := { d.v with cool := n, coolSet := true } }) t ht with h | ⟨hu, h⟩
    · exact ⟨d, h, hI⟩
    · refine ⟨_, h, hI.1, hI.2.1, ?_, hI.2.2.2⟩
      have hset : s.st.v.coolSet = true := by
        cases hs : s.st.v.coolSet with
        | true => rfl
        | false => exact absurd (show s.st.spCool = unset by unfold Hvac.Mode.St.spCool; rw [hs]; rfl) hu
      have he : s.st.spCool = s.st.v.cool := by unfold Hvac.Mode.St.spCool; rw [hset]; rfl
      have hv := hI.2.2.1
      rw [he]
      generalize d.v.mode = m at *
      rw [hv, ← hset]
  · exact fun _ d h => h

/-- A check box. -/
theorem moves_box (x : Fld) (hx : isBox x = true) (dis : Bool) (hdis : dis = true → roOf S.e x = true)
    (hp : S.hidF x = true → p x = false) (hp' : S.hidF x = false → p x = true)
    (hv : boxOn S.e s.cfg x = true ∧ s.cfg.f x = 1 ∨ boxOn S.e s.cfg x = false ∧ s.cfg.f x = 0) :
    Moves (Inv S s p M) (Inv S s (clear p x) M) (opt (!S.hidF x) ⟨.fld x, dis, .box (boxOn S.e s.cfg x)⟩) := by
  apply moves_opt
  · intro hc hd t ht d hI
    have ht : (if boxOn S.e s.cfg x then some [111, 110] else none) = some t := ht
    rcases hv with ⟨h1, h2⟩ | ⟨h1, h2⟩
    · rw [h1, if_pos rfl] at ht
      have ht := Option.some.inj ht
      subst ht
      refine ⟨d.set x 1, ?_, ?_⟩
      · have hx' : x = .antiFreeze ∨ x = .swManual ∨ x = .auxEnabled := by unfold isBox at hx; exact of_decide_eq_true hx
        rcases hx' with rfl | rfl | rfl <;> rfl
      · refine ⟨fun y => ?_, hI.2⟩
        by_cases hy : y = x
        · right
          subst hy
          show (if y = y then (1 : Int) else _) = if clear p y y = true then 0 else s.cfg.f y
          rw [clear_same, if_pos rfl, if_neg Bool.false_ne_true, h2]
        · have := hI.1 y
          have e : (d.set x 1).cfg.f y = d.cfg.f y := if_neg hy
          rw [e, clear_other _ _ _ hy]
          exact this
    · rw [h1] at ht; cases ht
  · intro hs d hI
    apply hI.box
    cases hh : S.hidF x with
    | true =>
      have := hI.1 x
      rw [hp hh] at this
      simpa using this
    | false =>
      rcases hs with hs | hs | hs
      · rw [hh] at hs; cases hs
      · exact Or.inl (hdis hs)
      · have hs : (if boxOn S.e s.cfg x then some [111, 110] else none) = none := hs
        rcases hv with ⟨h1, _⟩ | ⟨_, h2⟩
        · rw [h1] at hs; cases hs
        · have := hI.1 x
          rw [hp' hh] at this
          rw [h2]
          simpa using this

/-- A mode in manual operation that can be shown. -/
def ManualMode (S : Page) (s : Thermo) : Prop :=
  s.st.weekly = false ∧ 1 ≤ s.st.v.mode ∧ s.st.v.mode ≤ 4 ∧ (S.mode s.cfg).sup s.st.v.mode = true

theorem mode_shown (e : Hvac.Mode.Env) (m : Nat) (h1 : 1 ≤ m) (h4 : m ≤ 4) (hs : e.sup m = true) :
    (modeChoice e m false).untouched = some (wholeText m) := by
  show shown _ = _
  apply shown_same
  · refine ⟨option m true, List.mem_map.mpr ⟨(m, true), List.mem_filter.mpr ⟨?_, hs⟩, rfl⟩, rfl⟩
    have : m = 1 ∨ m = 2 ∨ m = 3 ∨ m = 4 := by omega
    rcases this with rfl | rfl | rfl | rfl <;> decide
  · intro o ho hm
    obtain ⟨x, hx, rfl⟩ := List.mem_map.mp ho
    have hx1 := (List.mem_filter.mp hx).1
    have hm : x.2 = true := hm
    have : x.1 = m := by
      simp only [List.mem_cons, List.not_mem_nil, or_false] at hx1
      rcases hx1 with rfl | rfl | rfl | rfl | rfl | rfl
      all_goals simp at hm
      all_goals exact hm.symm
    rw [← this]
    rfl

theorem moves_mode (hM : ∀ m, M m ↔ m = s.st.v.mode) :
    Moves (Inv S s p M) (Inv S s p (fun m => ManualMode S s → m = s.st.v.mode)) (opt true ⟨.mode, false, modeChoice (S.mode s.cfg) s.st.v.mode s.st.weekly⟩) := by
  apply moves_opt
  · intro _ _ t ht d hI
    refine ⟨_, rfl, hI.1, hI.2.1, ?_, ?_⟩
    · show ({ d.v with mode := stringToUInt t % 256 } : Val) = { s.st.v with mode := stringToUInt t % 256 }
      have := hI.2.2.1
      generalize d.v.mode = m at this
      rw [this]
    · intro hman
      obtain ⟨hw, h1, h4, hs⟩ := hman
      have ht : (modeChoice (S.mode s.cfg) s.st.v.mode s.st.weekly).untouched = some t := ht
      rw [hw, mode_shown _ _ h1 h4 hs] at ht
      have ht := Option.some.inj ht
      show stringToUInt t % 256 = s.st.v.mode
      rw [← ht, wholeText_uint _ (by omega)]
      omega
  · intro _ d hI
    exact ⟨hI.1, hI.2.1, hI.2.2.1, fun _ => (hM _).mp hI.2.2.2⟩

end Fields

/-! ## The whole page -/

/-- A temperature a page shows exactly: not set, or in tenths of a degree. -/
def Tenths (t : Int) : Prop := -32768 ≤ t ∧ t ≤ 32767 ∧ (t ≠ unset → t % 10 = 0)

/-- What the page can show of a thermostat. Every choice in a list is among those offered; a check box is 0 or 1;
numbers fit their fields; temperatures are in tenths of a degree. -/
structure Shows (S : Page) (s : Thermo) : Prop where
  subfn : S.e.thermostat = true → S.hidF .subfn = false → S.e.roF .subfn = false → s.cfg.f .subfn ∈ [1, 2]
  master : S.several = true → S.hidF .master = false → S.e.roF .master = false → ChanOk (s.cfg.f .masterSet) (s.cfg.f .master) S.masters
  pump : S.pumps ≠ [] → S.hidF .pump = false → S.e.roF .pump = false → ChanOk (s.cfg.f .pumpSet) (s.cfg.f .pump) S.pumps
  src : S.srcs ≠ [] → S.hidF .src = false → S.e.roF .src = false → ChanOk (s.cfg.f .srcSet) (s.cfg.f .src) S.srcs
  main : S.hidF .main = false → S.e.roF .main = false → s.cfg.f .main ∈ S.e.self :: S.thermos
  aux : S.hidF .aux = false → S.e.roF .aux = false → s.cfg.f .aux ∈ S.e.self :: S.thermos
  auxType : S.hidF .auxType = false → S.e.roF .auxType = false → s.cfg.f .auxType ∈ [0, 1, 2, 3, 4, 5]
  bin : S.sensors ≠ [] → S.hidF .bin = false → S.e.roF .bin = false → s.cfg.f .bin ∈ S.e.self :: S.sensors
  alg : S.hidF .alg = false → S.e.roF .alg = false → s.cfg.f .alg ∈ algs S.e
  onError : S.hidF .onError = false → S.internal = true → S.e.roF .onError = false → s.cfg.f .onError ∈ [0, 100, -100]
  bytes : ∀ x, x = .main ∨ x = .aux ∨ x = .auxType ∨ x = .bin → 0 ≤ s.cfg.f x ∧ s.cfg.f x ≤ 255
  words : ∀ x, x = .minOn ∨ x = .minOff ∨ x = .alg → 0 ≤ s.cfg.f x ∧ s.cfg.f x ≤ 65535
  boxes : ∀ x, x = .antiFreeze ∨ x = .swManual ∨ x = .auxEnabled →
    s.cfg.f x = 0 ∨ (s.cfg.f x = 1 ∧ (x = .swManual ∨ S.e.differential = false))
  antiFreeze : S.e.roF .antiFreeze = false
  temps : ∀ k ∈ [0, 4, 5, 8, 9], Tenths (get s.cfg.t k)
  heat : Tenths s.st.spHeat
  cool : Tenths s.st.spCool

theorem box_value (S : Page) (s : Thermo) (h : Shows S s) (x : Fld) (hx : isBox x = true) :
    boxOn S.e s.cfg x = true ∧ s.cfg.f x = 1 ∨ boxOn S.e s.cfg x = false ∧ s.cfg.f x = 0 := by
  have hx' : x = .antiFreeze ∨ x = .swManual ∨ x = .auxEnabled := by unfold isBox at hx; exact of_decide_eq_true hx
  rcases h.boxes x hx' with h0 | ⟨h1, h2⟩
  · right
    refine ⟨?_, h0⟩
    unfold boxOn
    split
    · rfl
    · rw [h0]; rfl
  · left
    refine ⟨?_, h1⟩
    unfold boxOn
    rw [if_neg, h1]
    · rfl
    · rintro ⟨ha, hb⟩
      rcases h2 with h2 | h2
      · exact ha h2
      · rw [h2] at hb; cases hb

/-- The check boxes that are expected. -/
def boxesOf (S : Page) : Fld → Bool := fun x => isBox x && !S.hidF x

theorem begin_inv (S : Page) (s : Thermo) (h : Shows S s) : Inv S s (boxesOf S) (fun m => m = s.st.v.mode) (thermoBegin S s) := by
  refine ⟨fun x => Or.inr ?_, rfl, rfl, rfl⟩
  show (if isBox x then (if S.hidF x then (if boxOn S.e s.cfg x then (1 : Int) else 0) else 0) else s.cfg.f x) = if (isBox x && !S.hidF x) = true then 0 else s.cfg.f x
  cases hx : isBox x with
  | false => rfl
  | true =>
    cases hh : S.hidF x with
    | false => rfl
    | true =>
      rcases box_value S s h x hx with ⟨h1, h2⟩ | ⟨h1, h2⟩
      · rw [h1, h2]; rfl
      · rw [h1, h2]; rfl

theorem and_not {a b : Bool} (h : (a && !b) = true) : a = true ∧ b = false := by
  cases a <;> cases b <;> simp_all

theorem not_true {b : Bool} (h : (!b) = true) : b = false := by cases b <;> simp_all

theorem not_empty {l : List Int} (h : (!l.isEmpty) = true) : l ≠ [] := by cases l <;> simp_all

/-- After all fields came back, everything that is not read-only is as before. -/
theorem page_moves (P : Printf) (S : Page) (s : Thermo) (h : Shows S s) :
    Moves (Inv S s (boxesOf S) (fun m => m = s.st.v.mode))
      (Inv S s (clear (clear (clear (boxesOf S) .auxEnabled) .antiFreeze) .swManual) (fun m => ManualMode S s → m = s.st.v.mode)) (thermoForm P S s) := by
  have hnb : ∀ x, isBox x = false → boxesOf S x = false := by intro x hx; unfold boxesOf; rw [hx]; rfl
  have hcl : ∀ (p : Fld → Bool) (y x : Fld), p x = false → clear p y x = false := by
    intro p y x hx; unfold clear; split
    · rfl
    · exact hx
  have ht : ∀ k ∈ [0, 4, 5, 8, 9], (get s.cfg.t k ≠ unset → get s.cfg.t k % 10 = 0) ∧ (-32768 ≤ get s.cfg.t k ∧ get s.cfg.t k ≤ 32767) :=
    fun k hk => ⟨(h.temps k hk).2.2, (h.temps k hk).1, (h.temps k hk).2.1⟩
  have hsplit : ∀ k ∈ [0, 4, 5, 8, 9], get s.cfg.t k ≠ unset → Faithful (splitText (get s.cfg.t k)) (get s.cfg.t k) :=
    fun k hk hu => split_faithful _ ((ht k hk).1 hu) (by have := (ht k hk).2; omega)
  have hten : ∀ k ∈ [0, 4, 5, 8, 9], get s.cfg.t k ≠ unset → Faithful (tenths P (get s.cfg.t k)) (get s.cfg.t k) :=
    fun k hk hu => tenths_faithful P _ ((ht k hk).1 hu) (by have := (ht k hk).2; omega)
  have hbox : ∀ (p : Fld → Bool) (M : Nat → Prop) (x : Fld) (dis : Bool), isBox x = true → (dis = true → roOf S.e x = true) → p x = boxesOf S x →
      Moves (Inv S s p M) (Inv S s (clear p x) M) (opt (!S.hidF x) ⟨.fld x, dis, .box (boxOn S.e s.cfg x)⟩) := by
    intro p M x dis hx hd hp
    apply moves_box S s p M x hx dis hd
    · intro hh; rw [hp]; unfold boxesOf; rw [hh, Bool.not_true, Bool.and_false]
    · intro hh; rw [hp]; unfold boxesOf; rw [hh, hx]; rfl
    · exact box_value S s h x hx
  let p1 := boxesOf S
  let p2 := clear p1 .auxEnabled
  let p3 := clear p2 .antiFreeze
  let M0 : Nat → Prop := fun m => m = s.st.v.mode
  let M1 : Nat → Prop := fun m => ManualMode S s → m = s.st.v.mode
  have f1 : ∀ x, isBox x = false → p1 x = false := hnb
  have f2 : ∀ x, isBox x = false → p2 x = false := fun x hx => hcl _ _ _ (hnb x hx)
  have f3 : ∀ x, isBox x = false → p3 x = false := fun x hx => hcl _ _ _ (f2 x hx)
  have a1 := moves_subfn S s p1 M0 (S.e.thermostat && !S.hidF .subfn) (S.e.roF .subfn) (f1 _ rfl) (fun hc => h.subfn (and_not hc).1 (and_not hc).2)
  have a2 := moves_chan S s p1 M0 (S.several && !S.hidF .master) .masterSet .master (S.e.roF .master) S.masters (Or.inl ⟨rfl, rfl⟩) (f1 _ rfl) (f1 _ rfl)
    (fun hc => h.master (and_not hc).1 (and_not hc).2)
  have a3 := moves_mode S s p1 M0 (fun _ => Iff.rfl)
  have a4 := moves_heat S s p1 M1 (tenths P) ((S.mode s.cfg).sup 2)
    (fun hu => tenths_faithful P _ (h.heat.2.2 hu) (by have := h.heat; unfold Tenths at this; omega)) h.heat.2.2 ⟨h.heat.1, h.heat.2.1⟩
  have a5 := moves_cool S s p1 M1 (tenths P) ((S.mode s.cfg).sup 3)
    (fun hu => tenths_faithful P _ (h.cool.2.2 hu) (by have := h.cool; unfold Tenths at this; omega)) h.cool.2.2 ⟨h.cool.1, h.cool.2.1⟩
  have a6 := moves_choice S s p1 M1 (!S.hidF .main) .main (S.e.roF .main) (S.e.self :: S.thermos) (Or.inl rfl) (f1 _ rfl) (h.bytes _ (Or.inl rfl))
    (fun hc => h.main (not_true hc))
  have a7 := moves_choice S s p1 M1 (!S.hidF .aux) .aux (S.e.roF .aux) (S.e.self :: S.thermos) (Or.inr (Or.inl rfl)) (f1 _ rfl) (h.bytes _ (Or.inr (Or.inl rfl)))
    (fun hc => h.aux (not_true hc))
  have a8 := moves_choice S s p1 M1 (!S.hidF .auxType) .auxType (S.e.roF .auxType) [0, 1, 2, 3, 4, 5] (Or.inr (Or.inr (Or.inl rfl))) (f1 _ rfl)
    (h.bytes _ (Or.inr (Or.inr (Or.inl rfl)))) (fun hc => h.auxType (not_true hc))
  have a9 := hbox p1 M1 .auxEnabled (S.e.roF .auxEnabled) rfl (fun hr => hr) rfl
  have b1 := moves_temp S s p2 M1 (tenths P) (!S.hidT 8) 8 (hten 8 (by decide)) (ht 8 (by decide)).1 (ht 8 (by decide)).2
  have b2 := moves_temp S s p2 M1 (tenths P) (!S.hidT 9) 9 (hten 9 (by decide)) (ht 9 (by decide)).1 (ht 9 (by decide)).2
  have b3 := hbox p2 M1 .antiFreeze false rfl (fun hr => absurd hr Bool.false_ne_true) (clear_other _ _ _ (by decide))
  have b4 := moves_temp S s p3 M1 splitText (!S.hidT 0) 0 (hsplit 0 (by decide)) (ht 0 (by decide)).1 (ht 0 (by decide)).2
  have b5 := moves_temp S s p3 M1 splitText (!S.hidT 4) 4 (hsplit 4 (by decide)) (ht 4 (by decide)).1 (ht 4 (by decide)).2
  have b6 := moves_choice S s p3 M1 (!S.sensors.isEmpty && !S.hidF .bin) .bin (S.e.roF .bin) (S.e.self :: S.sensors) (Or.inr (Or.inr (Or.inr rfl))) (f3 _ rfl)
    (h.bytes _ (Or.inr (Or.inr (Or.inr rfl)))) (fun hc => h.bin (not_empty (and_not hc).1) (and_not hc).2)
  have b7 := moves_chan S s p3 M1 (!S.pumps.isEmpty && !S.hidF .pump) .pumpSet .pump (S.e.roF .pump) S.pumps (Or.inr (Or.inl ⟨rfl, rfl⟩)) (f3 _ rfl) (f3 _ rfl)
    (fun hc => h.pump (not_empty (and_not hc).1) (and_not hc).2)
  have b8 := moves_chan S s p3 M1 (!S.srcs.isEmpty && !S.hidF .src) .srcSet .src (S.e.roF .src) S.srcs (Or.inr (Or.inr ⟨rfl, rfl⟩)) (f3 _ rfl) (f3 _ rfl)
    (fun hc => h.src (not_empty (and_not hc).1) (and_not hc).2)
  have b9 := moves_alg S s p3 M1 (!S.hidF .alg) (S.e.roF .alg) (algs S.e) (f3 _ rfl) (h.words _ (Or.inr (Or.inr rfl))) (fun hc => h.alg (not_true hc))
  have c1 := moves_temp S s p3 M1 splitText (!S.hidT 5) 5 (hsplit 5 (by decide)) (ht 5 (by decide)).1 (ht 5 (by decide)).2
  have c2 := moves_time S s p3 M1 (!S.hidF .minOn) .minOn (Or.inl rfl) (f3 _ rfl) (h.words _ (Or.inl rfl))
  have c3 := moves_time S s p3 M1 (!S.hidF .minOff) .minOff (Or.inr rfl) (f3 _ rfl) (h.words _ (Or.inr (Or.inl rfl)))
  have c4 := moves_onError S s p3 M1 (!S.hidF .onError && S.internal) (S.e.roF .onError) (f3 _ rfl)
    (fun hc => h.onError (not_true (Bool.and_eq_true _ _ ▸ hc).1) (Bool.and_eq_true _ _ ▸ hc).2)
  have c5 := hbox p3 M1 .swManual (S.e.roF .swManual) rfl (fun hr => hr)
    ((clear_other _ _ _ (by decide)).trans (clear_other _ _ _ (by decide)))
  unfold thermoForm thermoFormWith
  exact ((((((((((((((((((((((a1.append a2).append a3).append a4).append a5).append a6).append a7).append a8).append a9).append b1).append b2).append b3).append
    b4).append b5).append b6).append b7).append b8).append b9).append c1).append c2).append c3).append c4).append c5)

theorem all_came (S : Page) : clear (clear (clear (boxesOf S) .auxEnabled) .antiFreeze) .swManual = fun _ => false := by
  funext x
  cases x <;> rfl

/-! ## What is done with them -/

theorem fixRo_same (S : Page) (s : Thermo) (c : Cfg) (hf : ∀ x, roOf S.e x = true ∨ c.f x = s.cfg.f x) (ht : c.t = s.cfg.t) : fixRo S.e s.cfg c = s.cfg := by
  have h1 : (fun x => if roOf S.e x then s.cfg.f x else c.f x) = s.cfg.f := by
    funext x
    rcases hf x with h | h
    · rw [if_pos h]
    · split
      · rfl
      · exact h
  have h2 : ∀ m, (List.range m).foldl (fun t k => if S.e.roT k || decide (10 ≤ k) then Hvac.Config.fixRoT s.cfg.t t k else t) s.cfg.t = s.cfg.t := by
    intro m
    induction m with
    | zero => rfl
    | succ m ih =>
      rw [List.range_succ, List.foldl_append, ih]
      show (if S.e.roT m || decide (10 ≤ m) then Hvac.Config.fixRoT s.cfg.t s.cfg.t m else s.cfg.t) = s.cfg.t
      split
      · unfold Hvac.Config.fixRoT
        exact if_neg (fun hn => hn rfl)
      · rfl
  unfold fixRo
  rw [h1, ht, h2]

theorem applyTemps_same (t : Temps) : applyTemps t t = t := by
  funext k
  unfold applyTemps
  split
  · cases hk : t k with
    | some x => rfl
    | none =>
      dsimp only
      split
      · rename_i h5; rw [← h5, hk]
      · rfl
  · rfl

theorem repair_same (e : Hvac.Config.Env) (t : Temps) (h16 : 0 ≤ get t 16) (ha : e.differential = false → Hvac.Config.Apart t 8 9)
    (hp : e.heatCool = true → Hvac.Config.Apart t 0 4) : repair e t = t := by
  have hoff : (if get t 16 = unset then 200 else get t 16) = get t 16 := if_neg (by unfold unset; omega)
  have h1 : Hvac.Config.repairAux e t = t := by
    unfold Hvac.Config.repairAux
    split
    · rfl
    · rename_i hd
      dsimp only
      rw [hoff]
      split
      · rename_i hb
        have := ha (by simpa using hd) hb.1 hb.2
        rw [if_neg (by omega)]
      · rfl
  have h2 : Hvac.Config.repairProt e t = t := by
    unfold Hvac.Config.repairProt
    split
    · rfl
    · rename_i hd
      dsimp only
      rw [hoff]
      split
      · rename_i hb
        have := hp (by simpa using hd) hb.1 hb.2
        rw [if_neg (by omega)]
      · rfl
  unfold repair
  rw [h1, h2]

/-- A configuration that stays as it is when it is stored: the two pairs of temperatures keep their distance, and a
thermostat that is the master of another one has no master. -/
def Settled (S : Page) (c : Cfg) : Prop :=
  0 ≤ get c.t 16 ∧ (S.e.differential = false → Hvac.Config.Apart c.t 8 9) ∧ (S.e.heatCool = true → Hvac.Config.Apart c.t 0 4) ∧
  (S.isMaster = true → c.f .masterSet = 0 ∧ c.f .master = 0)

theorem noMaster_same (S : Page) (c : Cfg) (h : S.isMaster = true → c.f .masterSet = 0 ∧ c.f .master = 0) : noMaster S c = c := by
  unfold noMaster
  split
  · rename_i hm
    have := h hm
    have e : (fun x => if x = .masterSet ∨ x = .master then 0 else c.f x) = c.f := by
      funext x
      split
      · rename_i hx
        rcases hx with rfl | rfl
        · exact this.1.symm
        · exact this.2.symm
      · rfl
    rw [e]
  · rfl

theorem local_same (S : Page) (s : Thermo) (c : Cfg) (hf : ∀ x, roOf S.e x = true ∨ c.f x = s.cfg.f x) (ht : c.t = s.cfg.t) (h : Settled S s.cfg) :
    localConfig S c s = ⟨s.cfg, Hvac.Mode.fix (S.mode s.cfg) s.st⟩ ∨ localConfig S c s = s := by
  unfold localConfig
  rw [fixRo_same S s c hf ht]
  split
  · left
    dsimp only
    rw [applyTemps_same, repair_same S.e _ h.1 h.2.1 h.2.2.1]
    rw [noMaster_same S _ h.2.2.2]
  · exact Or.inr rfl

/-- In manual operation, with set points that are set and within the limits and, for both, at a distance that is
allowed; no timer is running. -/
structure Steady (S : Page) (s : Thermo) : Prop where
  manual : ManualMode S s
  timer : s.st.countdown = false
  heat : (S.mode s.cfg).heats = true → s.st.v.heatSet = true
  cool : (S.mode s.cfg).cools = true → s.st.v.coolSet = true
  heatIn : s.st.v.heatSet = true → (S.mode s.cfg).inRoom s.st.v.heat = true
  coolIn : s.st.v.coolSet = true → (S.mode s.cfg).inRoom s.st.v.cool = true
  noHeat : s.st.v.heatSet = false → s.st.manHeat = unset
  noCool : s.st.v.coolSet = false → s.st.manCool = unset
  gap : s.st.v.mode = 4 → (S.mode s.cfg).gapOk s.st.v.heat s.st.v.cool = true

/-- What a user sees of the mode: mode, set points, schedule, timer, and what the thermostat returns to. -/
def SameMode (a b : Hvac.Mode.St) : Prop := a.v = b.v ∧ a.weekly = b.weekly ∧ a.countdown = b.countdown ∧ a.wm = b.wm ∧ a.over = b.over

theorem fix_same (e : Hvac.Mode.Env) (s : Hvac.Mode.St) (hh : e.heats = true → s.v.heatSet = true) (hc : e.cools = true → s.v.coolSet = true)
    (hs : s.v.mode = 2 → e.heats = true) (hs' : s.v.mode = 3 → e.cools = true) (hu : s.v.heatSet = true → s.v.heat ≠ unset) (hu' : s.v.coolSet = true → s.v.cool ≠ unset)
    (hg : s.v.mode = 4 → e.gapOk s.v.heat s.v.cool = true) : Hvac.Mode.fix e s = s := by
  have h0 : Hvac.Mode.fixDefaults e s = s := by
    unfold Hvac.Mode.fixDefaults
    have e1 : (e.heats && !s.v.heatSet) = false := by
      cases hx : e.heats with
      | false => rfl
      | true => rw [hh hx]; rfl
    have e2 : (e.cools && !s.v.coolSet) = false := by
      cases hx : e.cools with
      | false => rfl
      | true => rw [hc hx]; rfl
    rw [e1, if_neg Bool.false_ne_true]
    dsimp only
    rw [e2, if_neg Bool.false_ne_true]
  unfold Hvac.Mode.fix
  dsimp only
  rw [h0]
  by_cases h2 : s.v.mode = 2
  · rw [if_pos h2]
    have hset := hh (hs h2)
    rw [if_neg]
    unfold Hvac.Mode.St.spHeat
    rw [hset, if_pos rfl]
    exact hu hset
  · rw [if_neg h2]
    by_cases h3 : s.v.mode = 3
    · rw [if_pos h3]
      have hset := hc (hs' h3)
      rw [if_neg]
      unfold Hvac.Mode.St.spCool
      rw [hset, if_pos rfl]
      exact hu' hset
    · rw [if_neg h3]
      by_cases h4 : s.v.mode = 4
      · rw [if_pos h4]
        split
        · rename_i hb
          have e1 : s.spHeat = s.v.heat := by
            unfold Hvac.Mode.St.spHeat at hb ⊢
            cases hx : s.v.heatSet with
            | true => rfl
            | false => rw [hx] at hb; exact absurd rfl hb.1
          have e2 : s.spCool = s.v.cool := by
            unfold Hvac.Mode.St.spCool at hb ⊢
            cases hx : s.v.coolSet with
            | true => rfl
            | false => rw [hx] at hb; exact absurd rfl hb.2
          rw [e1, e2, hg h4]
          rfl
        · rfl
      · rw [if_neg h4]

theorem sup_heats (e : Hvac.Mode.Env) (m : Nat) (h : e.sup m = true) (hm : m = 2) : e.heats = true := by subst hm; exact h
theorem sup_cools (e : Hvac.Mode.Env) (m : Nat) (h : e.sup m = true) (hm : m = 3) : e.cools = true := by subst hm; exact h

theorem inRoom_set (e : Hvac.Mode.Env) (t : Int) (h : e.inRoom t = true) : t ≠ unset ∧ e.clamp t = t := by
  have := of_decide_eq_true h
  refine ⟨this.1, ?_⟩
  unfold Hvac.Mode.Env.clamp
  rw [if_neg (by omega), if_neg (by omega)]

theorem setHeat_same (e : Hvac.Mode.Env) (s : Hvac.Mode.St) (h : s.v.heatSet = true → e.inRoom s.v.heat = true) (x : Int)
    (hx : s.v.heatSet = true → x = s.v.heat) (hx' : s.v.heatSet = false → x = unset) : Hvac.Mode.setHeat e x s = s := by
  unfold Hvac.Mode.setHeat
  cases hs : s.v.heatSet with
  | false => rw [if_pos (hx' hs)]
  | true =>
    have := inRoom_set e _ (h hs)
    rw [hx hs, if_neg this.1, this.2, ← hs]

theorem setCool_same (e : Hvac.Mode.Env) (s : Hvac.Mode.St) (h : s.v.coolSet = true → e.inRoom s.v.cool = true) (x : Int)
    (hx : s.v.coolSet = true → x = s.v.cool) (hx' : s.v.coolSet = false → x = unset) : Hvac.Mode.setCool e x s = s := by
  unfold Hvac.Mode.setCool
  cases hs : s.v.coolSet with
  | false => rw [if_pos (hx' hs)]
  | true =>
    have := inRoom_set e _ (h hs)
    rw [hx hs, if_neg this.1, this.2, ← hs]

theorem remember_same (m : Nat) (a b : Int) (s : Hvac.Mode.St) : SameMode (Hvac.Mode.remember m a b s) s := by
  unfold Hvac.Mode.remember
  repeat' split
  all_goals exact ⟨rfl, rfl, rfl, rfl, rfl⟩

theorem server_same (S : Page) (n : Hvac.Mode.Now) (s : Thermo) (h : Steady S s) : SameMode (Hvac.Mode.server (S.mode s.cfg) n s.st.v 0 s.st).1 s.st := by
  obtain ⟨hw, h1, h4, hs⟩ := h.manual
  have hcd := h.timer
  have hH := h.heatIn
  have hC := h.coolIn
  have nH := h.noHeat
  have nC := h.noCool
  generalize S.mode s.cfg = e at *
  generalize s.st = st at *
  have key : ∀ a b : Int, (st.v.heatSet = true → a = st.v.heat) → (st.v.heatSet = false → a = unset) → (st.v.coolSet = true → b = st.v.cool) →
      (st.v.coolSet = false → b = unset) → SameMode (Hvac.Mode.apply e n st.v.mode a b 0 st).1 st := by
    intro a b ha ha' hb hb'
    have hr : Hvac.Mode.resolve e n st.v.mode a b (if st.v.mode = 9 then { st with over := -1 } else st) = (st, st.v.mode) := by
      rw [if_neg (by omega)]
      unfold Hvac.Mode.resolve
      rw [if_neg (by omega)]
      dsimp only
      rw [if_neg (by omega)]
    unfold Hvac.Mode.apply
    dsimp only
    rw [hr]
    dsimp only
    rw [hs, Bool.not_true, if_neg Bool.false_ne_true, if_neg (by decide)]
    dsimp only
    unfold Hvac.Mode.applyBody
    dsimp only
    rw [if_neg (by decide)]
    have e1 : Hvac.Mode.setTarget e n st.v.mode false { st with countdown := false, ends := 1 } = { st with countdown := false, ends := 1 } := by
      unfold Hvac.Mode.setTarget Hvac.Mode.setPlain
      rw [if_neg (by omega), if_neg (by omega)]
      dsimp only
      rw [if_pos]
      refine ⟨rfl, ?_⟩
      rw [hw]
      simp
    rw [e1]
    have e2 : Hvac.Mode.setTemps e st.v.mode a b { st with countdown := false, ends := 1 } = { st with countdown := false, ends := 1 } := by
      unfold Hvac.Mode.setTemps
      dsimp only
      rw [if_pos (Or.inl ⟨by omega, hw⟩)]
      rw [setHeat_same e { st with countdown := false, ends := 1 } hH]
      · apply setCool_same e { st with countdown := false, ends := 1 } hC
        · intro hset
          have hx : b = st.v.cool := hb hset
          rw [if_neg]
          · exact hx
          · rw [hx]; exact fun hq => (inRoom_set e _ (hC hset)).1 hq.2
        · intro hset
          rw [if_pos ⟨hw, hb' hset⟩]
          exact nC hset
      · intro hset
        have hx : a = st.v.heat := ha hset
        rw [if_neg]
        · exact hx
        · rw [hx]; exact fun hq => (inRoom_set e _ (hH hset)).1 hq.2
      · intro hset
        rw [if_pos ⟨hw, ha' hset⟩]
        exact nH hset
    rw [e2]
    obtain ⟨r1, r2, r3, r4, r5⟩ := remember_same st.v.mode a b { st with countdown := false, ends := 1 }
    exact ⟨r1, r2, r3.trans hcd.symm, r4, r5⟩
  have h9 : ¬ st.v.mode = 9 := by omega
  unfold Hvac.Mode.server
  dsimp only
  rw [if_neg h9, if_neg h9]
  apply key
  · intro hx; rw [hx, hH hx]; rfl
  · intro hx; rw [hx]; exact nH hx
  · intro hx; rw [hx, hC hx]; rfl
  · intro hx; rw [hx]; exact nC hx

/-- The full claim: nothing a user sees changes. -/
def ThermoUntouched (P : Printf) (S : Page) (s : Thermo) : Prop :=
  ∀ n, ∃ r, thermoSave P S n s = some r ∧ r.cfg = s.cfg ∧ SameMode r.st s.st

/-- **C97.** If the page can show the configuration of a thermostat and the configuration is settled, saving the page
leaves all of it as it was; and if the thermostat is in steady manual operation, its mode and set points too. -/
theorem thermo_untouched_partial (P : Printf) (S : Page) (s : Thermo) (h : Shows S s) (hs : Settled S s.cfg) (n : Hvac.Mode.Now) :
    ∃ r, thermoSave P S n s = some r ∧ r.cfg = s.cfg ∧ (Steady S s → SameMode r.st s.st) := by
  obtain ⟨d, e1, hd⟩ := page_moves P S s h _ (begin_inv S s h)
  rw [all_came] at hd
  obtain ⟨hf, ht, hv, hm⟩ := hd
  have hf' : ∀ x, roOf S.e x = true ∨ d.cfg.f x = s.cfg.f x := by
    intro x
    rcases hf x with q | q
    · exact Or.inl q
    · exact Or.inr q
  refine ⟨thermoEnd S n s d, ?_, ?_, ?_⟩
  · unfold thermoSave thermoSaveWith
    unfold thermoForm at e1
    rw [e1]
    rfl
  · unfold thermoEnd
    dsimp only
    rcases local_same S s d.cfg hf' ht hs with q | q
    · rw [q]; split <;> rfl
    · rw [q]; split <;> rfl
  · intro hst
    have hfix : Hvac.Mode.fix (S.mode s.cfg) s.st = s.st :=
      fix_same _ _ hst.heat hst.cool (sup_heats _ _ hst.manual.2.2.2) (sup_cools _ _ hst.manual.2.2.2)
        (fun q => (inRoom_set _ _ (hst.heatIn q)).1) (fun q => (inRoom_set _ _ (hst.coolIn q)).1) hst.gap
    have hloc : localConfig S d.cfg s = s := by
      rcases local_same S s d.cfg hf' ht hs with q | q
      · rw [q, hfix]
      · exact q
    have hval : d.v = s.st.v := by rw [hv, hm hst.manual]
    unfold thermoEnd
    dsimp only
    rw [hloc, hval]
    split
    · exact ⟨rfl, rfl, rfl, rfl, rfl⟩
    · exact server_same S n s hst

/-! ## Concrete thermostats -/

/-- A heating thermostat, channel 5; channel 1 is a thermometer, 2 a sensor; 5 to 40 degrees. -/
def exE : Hvac.Config.Env := ⟨5, true, false, false, fun n => n = 1, fun n => n = 2, 3, fun _ => false, fun _ => false⟩

/-- The heating thermostat of the example: 5 to 40 degrees. -/
def exMode : Hvac.Mode.Env := ⟨.heat, true, 500, 4000, 200, 2000, true, false⟩

/-- Nothing is hidden; `masters` are the other thermostats and `pumps` the pump switches. -/
def exPage (masters pumps : List Int) : Page :=
  ⟨exE, fun _ => exMode, fun _ => false, fun _ => false, [1], [2], pumps, [], masters, !masters.isEmpty, true, false⟩

/-- Its temperatures. -/
def exTemps (freeze hyst : Int) : Temps := fun k =>
  match k with
  | 0 => some freeze | 4 => some 3500 | 5 => some hyst | 10 => some 500 | 11 => some 4000 | 14 => some 20
  | 15 => some 1000 | 16 => some 200 | 17 => some 2000 | _ => none

/-- Its other settings. -/
def exFlds : Fld → Int | .bin => 5 | .alg => 1 | .main => 1 | .aux => 5 | .subfn => 1 | .minOn => 30 | .antiFreeze => 1 | .onError => 100 | _ => 0

/-- Heating to `heat`, with or without schedule and timer; `ov` is the program overridden. -/
def exRuns (heat : Int) (weekly timer : Bool) (ov : Int) : Hvac.Mode.St :=
  ⟨⟨2, heat, 0, true, false⟩, weekly, timer, ⟨2, heat, 0, true, false⟩, 2, heat, unset, ov, 1⟩

/-- An ordinary thermostat. -/
def exThermo : Thermo := ⟨⟨exFlds, exTemps 700 40⟩, exRuns 2100 false false (-1)⟩

example : Shows (exPage [3] [4]) exThermo where
  subfn := fun _ _ _ => by decide
  master := fun _ _ _ => Or.inr ⟨rfl, rfl, by decide⟩
  pump := fun _ _ _ => Or.inr ⟨rfl, rfl, by decide⟩
  src := fun h => absurd rfl h
  main := fun _ _ => by decide
  aux := fun _ _ => by decide
  auxType := fun _ _ => by decide
  bin := fun _ _ _ => by decide
  alg := fun _ _ => by decide
  onError := fun _ _ _ => by decide
  bytes := by rintro x (rfl | rfl | rfl | rfl) <;> decide
  words := by rintro x (rfl | rfl | rfl) <;> decide
  boxes := by rintro x (rfl | rfl | rfl) <;> decide
  antiFreeze := rfl
  temps := by unfold Tenths; decide
  heat := by unfold Tenths; decide
  cool := by unfold Tenths; decide

example : Settled (exPage [3] [4]) exThermo.cfg :=
  ⟨by decide, fun _ p _ => absurd rfl p, fun h => absurd h (by decide), fun h => absurd h (by decide)⟩

example : Steady (exPage [3] [4]) exThermo where
  manual := ⟨rfl, by decide, by decide, rfl⟩
  timer := rfl
  heat := fun _ => rfl
  cool := fun h => absurd h (by decide)
  heatIn := fun _ => by decide
  coolIn := fun h => absurd h (by decide)
  noHeat := fun h => absurd h (by decide)
  noCool := fun _ => rfl
  gap := fun h => absurd h (by decide)

/-- The page depends on `%.1f` only for the set points and the two temperatures of the second sensor. -/
theorem form_congr (txt txt' : Int → List Nat) (S : Page) (s : Thermo)
    (h : ∀ t ∈ [s.st.spHeat, s.st.spCool, get s.cfg.t 8, get s.cfg.t 9], t ≠ unset → txt t = txt' t) : thermoFormWith txt S s = thermoFormWith txt' S s := by
  have ht : ∀ t ∈ [s.st.spHeat, s.st.spCool, get s.cfg.t 8, get s.cfg.t 9], tempText txt t = tempText txt' t := by
    intro t hm
    unfold tempText
    split
    · rfl
    · exact h t hm (by assumption)
  unfold thermoFormWith
  rw [ht _ (by simp), ht s.st.spCool (by simp), ht (get s.cfg.t 8) (by simp), ht (get s.cfg.t 9) (by simp)]

/-- 21.0, or 21.5. -/
def exText (t : Int) : List Nat := if t = 2100 then [50, 49, 46, 48] else if t = 2151 then [50, 49, 46, 53] else []

theorem tenths_2100 (P : Printf) : tenths P 2100 = [50, 49, 46, 48] := by
  unfold tenths fixedText
  have hu : P.units 1 ((2100 : Int) / 100 : Rat) = 210 := units_exact P 1 210 _ (by norm_num) (by norm_num)
  have hn : ¬ ((2100 : Int) / 100 : Rat) < 0 := by norm_num
  rw [if_neg hn]
  dsimp only
  rw [if_neg hn, hu]
  decide +kernel

theorem tenths_2151 (P : Printf) : tenths P 2151 = [50, 49, 46, 53] := by
  unfold tenths fixedText
  have hu : P.units 1 ((2151 : Int) / 100 : Rat) = 215 := units_exact P 1 215 _ (by norm_num) (by norm_num [abs_le])
  have hn : ¬ ((2151 : Int) / 100 : Rat) < 0 := by norm_num
  rw [if_neg hn]
  dsimp only
  rw [if_neg hn, hu]
  decide +kernel

theorem ex_text (P : Printf) (S : Page) (n : Hvac.Mode.Now) (s : Thermo)
    (h : ∀ t ∈ [s.st.spHeat, s.st.spCool, get s.cfg.t 8, get s.cfg.t 9], t = unset ∨ t = 2100 ∨ t = 2151) :
    thermoSave P S n s = thermoSaveWith exText S n s := by
  unfold thermoSave thermoSaveWith
  rw [form_congr (tenths P) exText S s]
  intro t hm hu
  rcases h t hm with rfl | rfl | rfl
  · exact absurd rfl hu
  · exact tenths_2100 P
  · exact tenths_2151 P

/-- Program 1: heating to 19 degrees. -/
def exNow : Hvac.Mode.Now := ⟨true, 1000, false, 1, ⟨2, 1900, 0⟩⟩

/-- **Finding.** Channel 0 is another thermostat and this one has no master: saving makes channel 0 the master. -/
theorem master_violation (P : Printf) : ¬ ThermoUntouched P (exPage [0] []) exThermo := by
  intro h
  obtain ⟨r, hr, hc, _⟩ := h exNow
  rw [ex_text P _ _ _ (by decide)] at hr
  have h1 : (thermoSaveWith exText (exPage [0] []) exNow exThermo).map (fun r => (r.cfg.f .masterSet, r.cfg.f .master)) = some (1, 0) := by decide +kernel
  rw [hr, Option.map_some, hc] at h1
  exact absurd h1 (by decide)

/-- **Finding.** The same for a pump switch that is channel 0: it becomes the thermostat's pump. -/
theorem pump_violation (P : Printf) : ¬ ThermoUntouched P (exPage [] [0]) exThermo := by
  intro h
  obtain ⟨r, hr, hc, _⟩ := h exNow
  rw [ex_text P _ _ _ (by decide)] at hr
  have h1 : (thermoSaveWith exText (exPage [] [0]) exNow exThermo).map (fun r => (r.cfg.f .pumpSet, r.cfg.f .pump)) = some (1, 0) := by decide +kernel
  rw [hr, Option.map_some, hc] at h1
  exact absurd h1 (by decide)

/-- **Finding.** A set point of 21.51 degrees becomes 21.5. -/
theorem setpoint_violation (P : Printf) : ¬ ThermoUntouched P (exPage [] []) { exThermo with st := exRuns 2151 false false (-1) } := by
  intro h
  obtain ⟨r, hr, _, hm⟩ := h exNow
  rw [ex_text P _ _ _ (by decide)] at hr
  have h1 : (thermoSaveWith exText (exPage [] []) exNow { exThermo with st := exRuns 2151 false false (-1) }).map (fun r => r.st.v.heat) = some 2150 := by decide +kernel
  rw [hr, Option.map_some, hm.1] at h1
  exact absurd h1 (by decide)

/-- **Finding.** A running timer is cancelled: the thermostat keeps what it does for good. -/
theorem timer_violation (P : Printf) : ¬ ThermoUntouched P (exPage [] []) { exThermo with st := exRuns 2100 false true (-1) } := by
  intro h
  obtain ⟨r, hr, _, hm⟩ := h exNow
  rw [ex_text P _ _ _ (by decide)] at hr
  have h1 : (thermoSaveWith exText (exPage [] []) exNow { exThermo with st := exRuns 2100 false true (-1) }).map (fun r => r.st.countdown) = some false := by decide +kernel
  rw [hr, Option.map_some, hm.2.2.1] at h1
  exact absurd h1 (by decide)

/-- **Finding.** A set point chosen by hand until the end of the current program is lost: 21 degrees become the
program's 19. -/
theorem override_violation (P : Printf) : ¬ ThermoUntouched P (exPage [] []) { exThermo with st := exRuns 2100 true false 1 } := by
  intro h
  obtain ⟨r, hr, _, hm⟩ := h exNow
  rw [ex_text P _ _ _ (by decide)] at hr
  have h1 : (thermoSaveWith exText (exPage [] []) exNow { exThermo with st := exRuns 2100 true false 1 }).map (fun r => r.st.v.heat) = some 1900 := by decide +kernel
  rw [hr, Option.map_some, hm.1] at h1
  exact absurd h1 (by decide)

/-- **Finding.** A hysteresis of 0.45 degrees becomes 0.4, and a freezing protection at 7.05 degrees 7.0. -/
theorem hysteresis_violation (P : Printf) : ¬ ThermoUntouched P (exPage [] []) { exThermo with cfg := ⟨exFlds, exTemps 705 45⟩ } := by
  intro h
  obtain ⟨r, hr, hc, _⟩ := h exNow
  rw [ex_text P _ _ _ (by decide)] at hr
  have h1 : (thermoSaveWith exText (exPage [] []) exNow { exThermo with cfg := ⟨exFlds, exTemps 705 45⟩ }).map (fun r => (get r.cfg.t 5, get r.cfg.t 0)) = some (40, 700) := by decide +kernel
  rw [hr, Option.map_some, hc] at h1
  exact absurd h1 (by decide)

/-- **Finding.** An output of 50 % in case of a faulty thermometer, which the server can set, becomes 0. -/
theorem onError_violation (P : Printf) : ¬ ThermoUntouched P (exPage [] []) { exThermo with cfg := ⟨fun x => if x = .onError then 50 else exFlds x, exTemps 700 40⟩ } := by
  intro h
  obtain ⟨r, hr, hc, _⟩ := h exNow
  rw [ex_text P _ _ _ (by decide)] at hr
  have h1 : (thermoSaveWith exText (exPage [] []) exNow { exThermo with cfg := ⟨fun x => if x = .onError then 50 else exFlds x, exTemps 700 40⟩ }).map (fun r => r.cfg.f .onError) = some 0 := by
    decide +kernel
  rw [hr, Option.map_some, hc] at h1
  exact absurd h1 (by decide)

end Verif.Form
