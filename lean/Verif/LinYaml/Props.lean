import Verif.LinYaml.Model
import Verif.Channel.RegistryProps
import Mathlib.Data.List.Induction

/-! # Configuration file of the Linux port: proofs -/

namespace Verif.LinYaml

open Channel (ROp Reg Chan rrun rstep numOf RInv)

/-! ## Single values -/

/-- Full claim (README of the port): the port is given in the section `supla`, 2016 otherwise. -/
def SuplaPortGiven : Prop := ∀ c, suplaPort c = (match field2 c "supla" "port" with | some (.num n) => n | _ => 2016)

/-- The port given there is never used: without a value outside the section the port is always 2016. -/
theorem supla_port_violation : ¬ SuplaPortGiven ∧ ∀ c, field c "port" = none → suplaPort c = 2016 := by
  have key : ∀ c, field c "port" = none → suplaPort c = 2016 := by
    intro c h
    unfold suplaPort
    rw [h]
  refine ⟨fun h => ?_, key⟩
  have h1 := h (.map [("supla", .map [("port", .num 2017)])])
  rw [key _ (by decide +kernel)] at h1
  have e : field2 (.map [("supla", .map [("port", .num 2017)])]) "supla" "port" = some (.num 2017) := rfl
  rw [e] at h1
  exact absurd h1 (by decide)

/-- A port given outside the section (a whole number) is used. -/
theorem supla_port_outside (c : Y) (n : Int) (h : field c "port" = some (.num n)) : suplaPort c = n := by
  unfold suplaPort
  rw [h]

/-- A port of the broker that is given is used. -/
theorem mqtt_port_given (c : Y) (n : Int) (h : field2 c "mqtt" "port" = some (.num n)) : mqttPort c = n := by
  unfold mqttPort
  rw [h]

/-- Full claim: without a given port it is 8883 with encryption and 1883 without. -/
def MqttPortDefault : Prop := ∀ c, field2 c "mqtt" "port" = none → mqttPort c = if mqttUseSSL c = true then 8883 else 1883

/-- It holds if encryption is asked for or not mentioned. -/
theorem mqtt_port_default_partial (c : Y) (h : field2 c "mqtt" "port" = none)
    (hs : field2 c "mqtt" "use_ssl" = none ∨ field2 c "mqtt" "use_ssl" = some (.bool true)) :
    mqttPort c = if mqttUseSSL c = true then 8883 else 1883 := by
  unfold mqttPort mqttUseSSL
  rw [h]
  rcases hs with hs | hs
  · rw [hs]; rfl
  · rw [hs]; rfl

/-- With `use_ssl: false` the port of encrypted connections is used, without encryption. -/
theorem mqtt_port_default_violation : ¬ MqttPortDefault ∧ ∀ c, field2 c "mqtt" "port" = none →
    field2 c "mqtt" "use_ssl" = some (.bool false) → mqttPort c = 8883 ∧ mqttUseSSL c = false := by
  have key : ∀ c, field2 c "mqtt" "port" = none → field2 c "mqtt" "use_ssl" = some (.bool false) → mqttPort c = 8883 ∧ mqttUseSSL c = false := by
    intro c h hs
    unfold mqttPort mqttUseSSL
    rw [h, hs]
    exact ⟨rfl, rfl⟩
  refine ⟨fun h => ?_, key⟩
  have h0 : field2 (.map [("mqtt", .map [("use_ssl", .bool false)])]) "mqtt" "port" = none := by decide +kernel
  have hk := key _ h0 rfl
  have h1 := h _ h0
  rw [hk.1, hk.2] at h1
  exact absurd h1 (by decide)

/-- A value that is not in the file is the stored one; one that is (0 to 255) is that of the file. -/
theorem uint8_read (c : Y) (stored : String → Option Nat) (k : String) :
    (field c k = none → getUInt8 c stored k = stored k) ∧
    ∀ n : Nat, n < 256 → field c k = some (.num n) → getUInt8 c stored k = some n := by
  refine ⟨fun h => ?_, fun n hn h => ?_⟩
  · unfold getUInt8
    rw [h]
  · unfold getUInt8
    rw [h]
    dsimp only
    rw [if_pos (by omega)]
    congr 1
    omega

/-- Full claims: what is stored is read back; a value outside 0 to 255 is refused. -/
def StoredReadBack : Prop := ∀ c stored k v, stored k = some v → getUInt8 c stored k = some v
def RangeChecked : Prop := ∀ c stored k (n : Int), field c k = some (.num n) → n > 255 → getUInt8 c stored k = none

/-- The file hides the stored value; larger numbers are cut to a byte (258 is read as 2: no check of certificates). -/
theorem uint8_violation : ¬ StoredReadBack ∧ ¬ RangeChecked := by
  constructor
  · intro h
    have h1 := h (.map [("a", .num 1)]) (fun _ => some 7) "a" 7 rfl
    have e : getUInt8 (.map [("a", .num 1)]) (fun _ => some 7) "a" = some 1 := by decide +kernel
    rw [e] at h1
    exact absurd h1 (by decide)
  · intro h
    have h1 := h (.map [("a", .num 258)]) (fun _ => none) "a" 258 rfl (by decide)
    have e : getUInt8 (.map [("a", .num 258)]) (fun _ => none) "a" = some 2 := by decide +kernel
    rw [e] at h1
    cases h1

/-- Texts of the section `mqtt` of fewer than 256 bytes are read as they are; longer ones are written outside the buffer. -/
theorem mqtt_text (c : Y) (k : String) (t : List Nat) (h : field2 c "mqtt" k = some (.text t)) :
    (t.length < 256 → mqttText c k = some t) ∧ (256 ≤ t.length → mqttText c k = none) := by
  unfold mqttText
  rw [h]
  dsimp only
  exact ⟨fun ht => if_pos ht, fun ht => if_neg (by omega)⟩

/-- Full claim: every text can be read. -/
def MqttTextSafe : Prop := ∀ c k, mqttText c k ≠ none

theorem mqtt_text_violation : ¬ MqttTextSafe := by
  intro h
  refine h (.map [("mqtt", .map [("password", .text (List.replicate 300 65))])]) "password" ?_
  refine (mqtt_text _ "password" (List.replicate 300 65) rfl).2 ?_
  rw [List.length_replicate]
  decide

/-! ## Named objects -/

/-- Specification: the last object made with a name, sections newest first. -/
def latest (name : String) : List Sect → Option Nat
  | [] => none
  | .make n o :: older => if n = some name then some o else latest name older
  | .use _ :: older => latest name older

/-- A name means the last object made with it before, for all four kinds. -/
theorem use_latest (extra : Nat) (l : List Sect) (name : String) : resolve (sections extra l) name = latest name l.reverse := by
  have key : ∀ r : List Sect, ∀ s : Names, s = r.foldr (fun x s => section' extra s x) {} →
      (resolve s name = latest name r ∧ (∀ n i, s.names n = some i → i < s.count) ∧ (∀ i, s.count ≤ i → s.objs i = none)) := by
    intro r
    induction r with
    | nil => rintro s rfl; exact ⟨rfl, (fun n i h => by cases h), fun _ _ => rfl⟩
    | cons x older ih =>
      intro s hs
      rw [List.foldr_cons] at hs
      obtain ⟨h1, h2, h3⟩ := ih _ rfl
      generalize older.foldr (fun x s => section' extra s x) {} = u at hs h1 h2 h3
      subst hs
      cases x with
      | use n =>
        exact ⟨h1, fun n i h => Nat.lt_of_lt_of_le (h2 n i h) (Nat.le_add_right _ _), fun i hi => h3 i (Nat.le_trans (Nat.le_add_right _ _) hi)⟩
      | make n o =>
        refine ⟨?_, fun m i h => ?_, fun i hi => ?_⟩
        · show ((if n = some name then some u.count else u.names name).bind fun i => if i = u.count then some o else u.objs i) =
            if n = some name then some o else latest name older
          by_cases hn : n = some name
          · rw [if_pos hn, if_pos hn]
            show (if u.count = u.count then some o else u.objs u.count) = some o
            rw [if_pos rfl]
          · rw [if_neg hn, if_neg hn, ← h1]
            unfold resolve
            cases hm : u.names name with
            | none => rfl
            | some i =>
              show (if i = u.count then some o else u.objs i) = u.objs i
              rw [if_neg (Nat.ne_of_lt (h2 name i hm))]
        · have h : (if n = some m then some u.count else u.names m) = some i := h
          show i < u.count + 1 + extra
          by_cases hn : n = some m
          · rw [if_pos hn] at h
            have := Option.some.inj h
            omega
          · rw [if_neg hn] at h
            have := h2 m i h
            omega
        · have hi : u.count + 1 + extra ≤ i := hi
          show (if i = u.count then some o else u.objs i) = none
          rw [if_neg (by omega)]
          exact h3 i (by omega)
  have := (key l.reverse _ rfl).1
  rw [List.foldr_reverse] at this
  exact this

/-- Non-vacuity. -/
example : resolve (sections 1 [.make (some "a") 10, .make none 11, .use "a", .make (some "b") 12]) "a" = some 10 := by decide +kernel

/-! ## Channel numbers -/

/-- The file is acceptable: at most 128 channels, numbers 0 to 127. -/
def Acceptable (l : List Entry) : Prop := l.length ≤ 128 ∧ ∀ e ∈ l, ∀ n, e.num = some n → 0 ≤ n ∧ n < 128

/-- The number asked for by a channel that can have one. -/
def wants (e : Entry) : Option Int := if e.trigger then none else e.num

/-- No number is asked for twice. -/
def Distinct (l : List Entry) : Prop := ∀ (i j : Nat) (e f : Entry) (n : Int), l[i]? = some e → l[j]? = some f →
  wants e = some n → wants f = some n → i = j

theorem opsFrom_append (l m : List Entry) : ∀ i, opsFrom i (l ++ m) = opsFrom i l ++ opsFrom (i + l.length) m := by
  induction l with
  | nil => exact fun i => rfl
  | cons e es ih =>
    intro i
    show entryOps i e ++ opsFrom (i + 1) (es ++ m) = (entryOps i e ++ opsFrom (i + 1) es) ++ _
    rw [ih, List.append_assoc, List.length_cons, show i + 1 + es.length = i + (es.length + 1) by omega]

theorem entryOps_eq (i : Nat) (e : Entry) : entryOps i e = .create (-1) :: (match wants e with | some n => [.renumber i n] | none => []) := by
  obtain ⟨t, n⟩ := e
  unfold entryOps wants
  cases t <;> cases n <;> rfl

theorem wants_num {e : Entry} {n : Int} (h : wants e = some n) : e.num = some n := by
  unfold wants at h
  split at h
  · cases h
  · exact h

theorem entryOps_permitted (i : Nat) (e : Entry) (h : ∀ n, e.num = some n → 0 ≤ n ∧ n < 128) : ∀ o ∈ entryOps i e, o.permitted := by
  intro o ho
  rw [entryOps_eq] at ho
  rcases List.mem_cons.1 ho with rfl | ho
  · show (-1 : Int) ≤ -1
    omega
  · cases hw : wants e with
    | none => rw [hw] at ho; cases ho
    | some n =>
      rw [hw] at ho
      rw [List.mem_singleton.1 ho]
      exact (h n (wants_num hw)).2

theorem opsFrom_permitted (l : List Entry) (h : ∀ e ∈ l, ∀ n, e.num = some n → 0 ≤ n ∧ n < 128) : ∀ i, ∀ o ∈ opsFrom i l, o.permitted := by
  induction l with
  | nil => exact fun i o ho => by cases ho
  | cons e es ih =>
    intro i o ho
    rcases List.mem_append.1 ho with ho | ho
    · exact entryOps_permitted i e (h e List.mem_cons_self) o ho
    · exact ih (fun x hx => h x (List.mem_cons_of_mem _ hx)) (i + 1) o ho

theorem rrun_append (a b : List ROp) (r : Reg) : rrun r (a ++ b) = rrun (rrun r a) b := by
  unfold rrun
  rw [List.foldl_append]

theorem length_le_nextId {r : Reg} (h : RInv r) : r.chans.length ≤ r.nextId := by
  have hp := h.ids.1
  have hl := h.ids.2
  have hnd : (r.chans.map Chan.id).Nodup := by
    rw [List.Nodup, List.pairwise_map]
    exact hp
  have hs : r.chans.map Chan.id ⊆ List.range r.nextId := by
    intro x hx
    obtain ⟨c, hc, rfl⟩ := List.mem_map.1 hx
    exact List.mem_range.2 (hl c hc)
  have := Channel.nodup_length_le hnd hs
  rwa [List.length_map, List.length_range] at this

/-- With fewer than 128 channels a number is free. -/
theorem not_all_used {l : List Chan} (h : l.length < 128) : ¬ ∀ j : Int, 0 ≤ j → j < 128 → Channel.used l j = true := by
  intro hall
  have hs : List.range 128 ⊆ l.map (fun c => c.num.toNat) := by
    intro x hx
    have hx := List.mem_range.1 hx
    obtain ⟨c, hc, hn⟩ := Channel.used_eq_true.1 (hall x (by omega) (by omega))
    exact List.mem_map.2 ⟨c, hc, by omega⟩
  have := Channel.nodup_length_le List.nodup_range hs
  rw [List.length_map, List.length_range] at this
  omega

theorem numOf_append_old {l : List Chan} {c : Chan} {i : Nat} (h : c.id ≠ i) : numOf (l ++ [c]) i = numOf l i := by
  unfold numOf
  rw [List.find?_append]
  cases l.find? (fun c => decide (c.id = i)) with
  | some x => rfl
  | none =>
    rw [List.find?_cons_of_neg (by simpa using h)]
    rfl

/-- What is kept while loading. -/
structure Inv (l : List Entry) : Prop where
  next : (loaded l).nextId = l.length
  has : ∀ i, i < l.length → ∃ k, number l i = some k ∧ 0 ≤ k ∧ k < 128

/-- Loading one more channel: it gets the lowest free number `k`, and if it asks for a number it exchanges with the channel
that has it. -/
theorem load_one (l : List Entry) (e : Entry) (ha : Acceptable (l ++ [e])) (hi : Inv l) :
    ∃ k : Int, 0 ≤ k ∧ k < 128 ∧ (∀ i, i < l.length → number l i ≠ some k) ∧ (∀ j : Int, 0 ≤ j → j < k → ∃ i, i < l.length ∧ number l i = some j) ∧
      (loaded (l ++ [e])).nextId = l.length + 1 ∧
      (wants e = none → number (l ++ [e]) l.length = some k ∧ ∀ i, i < l.length → number (l ++ [e]) i = number l i) ∧
      (∀ n, wants e = some n → number (l ++ [e]) l.length = some n ∧
        (∀ i, i < l.length → number l i = some n → number (l ++ [e]) i = some k) ∧
        (∀ i, i < l.length → number l i ≠ some n → number (l ++ [e]) i = number l i)) := by
  have hlen : l.length < 128 := by
    have := ha.1
    rw [List.length_append, List.length_singleton] at this
    omega
  have hal : ∀ x ∈ l, ∀ n, x.num = some n → 0 ≤ n ∧ n < 128 := fun x hx => ha.2 x (List.mem_append_left _ hx)
  have hae : ∀ n, e.num = some n → 0 ≤ n ∧ n < 128 := fun n => ha.2 e (List.mem_append_right _ List.mem_cons_self) n
  have hp := opsFrom_permitted l hal 0
  have hinv := Channel.rrun_inv _ hp {} Channel.rinv_init
  have hshort : (loaded l).chans.length < 128 := by
    have h1 := length_le_nextId hinv
    have h2 := hi.next
    unfold loaded at *
    omega
  rcases Channel.create_cases (loaded l) (-1) (by omega) with ⟨k, k0, k1, _, kf, ku, ke⟩ | ⟨hbad, _⟩
  swap
  · rcases hbad with ⟨_, hb⟩ | ⟨hb, _⟩
    · exact absurd hb (not_all_used hshort)
    · exact absurd rfl hb
  have hmem : ∀ i n, number l i = some n → ∃ c ∈ (loaded l).chans, c.id = i ∧ c.num = n := fun i n h => Channel.numOf_some h
  have hnk : ∀ i, i < l.length → number l i ≠ some k := by
    intro i _ h
    obtain ⟨c, hc, _, hn⟩ := hmem i k h
    exact kf c hc hn
  have hlow : ∀ j : Int, 0 ≤ j → j < k → ∃ i, i < l.length ∧ number l i = some j := by
    intro j h0 h1
    obtain ⟨c, hc, hn⟩ := Channel.used_eq_true.1 (ku rfl j h0 h1)
    refine ⟨c.id, ?_, ?_⟩
    · have := hinv.ids.2 c hc
      have h2 := hi.next
      unfold loaded at h2
      omega
    · show numOf (rrun {} (opsFrom 0 l)).chans c.id = some j
      rw [Channel.numOf_of_mem hinv.ids.1 hc, hn]
  -- after the creation
  have hnew : ∀ i, i < l.length → numOf (Channel.create (loaded l) (-1)).chans i = number l i := by
    intro i h
    rw [ke]
    dsimp only
    exact numOf_append_old (by have := hi.next; dsimp only; omega)
  have hnewk : numOf (Channel.create (loaded l) (-1)).chans l.length = some k := by
    have hi' := Channel.create_inv _ hinv (-1) (by omega)
    have ke' := ke
    unfold loaded at ke'
    rw [ke'] at hi'
    have := Channel.numOf_of_mem hi'.ids.1 (c := { id := (loaded l).nextId, num := k }) (by unfold loaded; simp)
    rw [ke, ← hi.next]
    exact this
  have hload : loaded (l ++ [e]) = rrun (Channel.create (loaded l) (-1)) (match wants e with | some n => [.renumber l.length n] | none => []) := by
    unfold loaded
    rw [opsFrom_append, rrun_append]
    show rrun _ (entryOps (0 + l.length) e ++ opsFrom _ []) = _
    rw [show opsFrom (0 + l.length + 1) [] = [] from rfl, List.append_nil, Nat.zero_add, entryOps_eq]
    rfl
  refine ⟨k, k0, k1, hnk, hlow, ?_, fun hw => ?_, fun n hw => ?_⟩
  · rw [hload]
    have hn : (Channel.create (loaded l) (-1)).nextId = l.length + 1 := by
      rw [ke]
      dsimp only
      rw [hi.next]
    cases wants e with
    | none => exact hn
    | some n => exact hn
  · unfold number
    rw [hload, hw]
    exact ⟨hnewk, hnew⟩
  · obtain ⟨n0, n1⟩ := hae n (wants_num hw)
    have hops : rrun {} (opsFrom 0 l ++ [.create (-1)]) = Channel.create (loaded l) (-1) := by
      rw [rrun_append]; rfl
    have hp2 : ∀ o ∈ opsFrom 0 l ++ [.create (-1)], o.permitted := by
      intro o ho
      rcases List.mem_append.1 ho with ho | ho
      · exact hp o ho
      · rw [List.mem_singleton.1 ho]
        show (-1 : Int) ≤ -1
        omega
    have hex := Channel.renumber_exchanges _ hp2 l.length k n n0 n1 (by rw [hops]; exact hnewk) (by omega)
    rw [hops] at hex
    have hl2 : loaded (l ++ [e]) = rstep (Channel.create (loaded l) (-1)) (.renumber l.length n) := by
      rw [hload, hw]
      rfl
    unfold number
    rw [hl2]
    refine ⟨hex.1, fun i h hn => ?_, fun i h hn => ?_⟩
    · exact hex.2.1 i (by omega) (by rw [hnew i h]; exact hn)
    · rw [hex.2.2 i (by omega) (by rw [hnew i h]; exact hn), hnew i h]
      rfl

theorem acceptable_init {l : List Entry} {e : Entry} (h : Acceptable (l ++ [e])) : Acceptable l := by
  refine ⟨?_, fun x hx => h.2 x (List.mem_append_left _ hx)⟩
  have := h.1
  rw [List.length_append, List.length_singleton] at this
  omega

theorem inv (l : List Entry) (ha : Acceptable l) : Inv l := by
  induction l using List.reverseRecOn with
  | nil => exact ⟨rfl, fun i h => absurd h (Nat.not_lt_zero i)⟩
  | append_singleton l e ih =>
    have hi := ih (acceptable_init ha)
    obtain ⟨k, k0, k1, hnk, _, hn, h1, h2⟩ := load_one l e ha hi
    refine ⟨by rw [hn, List.length_append]; rfl, fun i h => ?_⟩
    rw [List.length_append, List.length_singleton] at h
    cases hw : wants e with
    | none =>
      obtain ⟨a, b⟩ := h1 hw
      by_cases hl : i = l.length
      · rw [hl]; exact ⟨k, a, k0, k1⟩
      · rw [b i (by omega)]
        exact hi.has i (by omega)
    | some n =>
      obtain ⟨a, b, c⟩ := h2 n hw
      have hr := ha.2 e (List.mem_append_right _ List.mem_cons_self) n (wants_num hw)
      by_cases hl : i = l.length
      · rw [hl]; exact ⟨n, a, hr⟩
      · by_cases hin : number l i = some n
        · exact ⟨k, b i (by omega) hin, k0, k1⟩
        · rw [c i (by omega) hin]
          exact hi.has i (by omega)

/-- Every channel has a number from 0 to 127. -/
theorem all_numbered (l : List Entry) (ha : Acceptable l) (i : Nat) (h : i < l.length) : ∃ k, number l i = some k ∧ 0 ≤ k ∧ k < 128 :=
  (inv l ha).has i h

/-- No two channels have the same number. -/
theorem numbers_distinct (l : List Entry) (ha : Acceptable l) (i j : Nat) (k : Int) (hk : k ≠ -1) (h1 : number l i = some k) (h2 : number l j = some k) : i = j := by
  have hinv := Channel.rrun_inv _ (opsFrom_permitted l ha.2 0) {} Channel.rinv_init
  obtain ⟨c, hc, hci, hcn⟩ := Channel.numOf_some h1
  obtain ⟨d, hd, hdi, hdn⟩ := Channel.numOf_some h2
  rw [← hci, ← hdi]
  exact hinv.ok.2 c hc d hd (by rw [Channel.Chan.registered, hcn]; exact hk) (by rw [hcn, hdn])

/-- Each `channel_number` (of channels other than action triggers) is honoured if no number is asked for twice. -/
theorem number_honoured_partial (l : List Entry) (ha : Acceptable l) (hd : Distinct l) :
    ∀ (i : Nat) (e : Entry) (n : Int), l[i]? = some e → wants e = some n → number l i = some n := by
  induction l using List.reverseRecOn with
  | nil => exact fun i e n h => by cases h
  | append_singleton l f ih =>
    intro i e n hl hw
    have hdl : Distinct l := by
      intro i j e f n h1 h2
      have g1 : i < l.length := (List.getElem?_eq_some_iff.1 h1).1
      have g2 : j < l.length := (List.getElem?_eq_some_iff.1 h2).1
      exact hd i j e f n (by rw [List.getElem?_append_left g1]; exact h1) (by rw [List.getElem?_append_left g2]; exact h2)
    have hi := inv l (acceptable_init ha)
    obtain ⟨k, _, _, _, _, _, h1, h2⟩ := load_one l f ha hi
    have hlast : (l ++ [f])[l.length]? = some f := by simp
    by_cases hlt : i < l.length
    · have hl' : l[i]? = some e := by rw [List.getElem?_append_left hlt] at hl; exact hl
      have hn := ih (acceptable_init ha) hdl i e n hl' hw
      cases hf : wants f with
      | none => rw [(h1 hf).2 i hlt, hn]
      | some m =>
        have hne : number l i ≠ some m := by
          intro hm
          have hnm : m = n := Option.some.inj (hm.symm.trans hn)
          have := hd i l.length e f n hl hlast hw (by rw [hf, hnm])
          omega
        rw [(h2 m hf).2.2 i hlt hne, hn]
    · have hlen := (List.getElem?_eq_some_iff.1 hl).1
      rw [List.length_append, List.length_singleton] at hlen
      have hie : i = l.length := by omega
      subst hie
      rw [hlast] at hl
      cases hl
      exact (h2 n hw).1

/-- Without any `channel_number` the channels have the numbers 0, 1, 2, … in their order. -/
theorem in_order (l : List Entry) (hl : l.length ≤ 128) (h : ∀ e ∈ l, e.num = none) : ∀ i, i < l.length → number l i = some (i : Int) := by
  induction l using List.reverseRecOn with
  | nil => exact fun i h => absurd h (Nat.not_lt_zero i)
  | append_singleton l e ih =>
    have ha : Acceptable (l ++ [e]) := ⟨hl, fun x hx n hn => by rw [h x hx] at hn; cases hn⟩
    have hi := inv l (acceptable_init ha)
    have hs := ih (acceptable_init ha).1 (fun x hx => h x (List.mem_append_left _ hx))
    obtain ⟨k, k0, _, hnk, hlow, _, h1, _⟩ := load_one l e ha hi
    have hw : wants e = none := by
      unfold wants
      rw [h e (List.mem_append_right _ List.mem_cons_self)]
      split <;> rfl
    obtain ⟨a, b⟩ := h1 hw
    have hk : k = l.length := by
      rcases Int.lt_trichotomy k l.length with hlt | heq | hgt
      · exact absurd (by rw [hs k.toNat (by omega)]; congr 1; omega) (hnk k.toNat (by omega))
      · exact heq
      · obtain ⟨i, hil, hin⟩ := hlow l.length (by omega) hgt
        rw [hs i hil] at hin
        have := Option.some.inj hin
        omega
    intro i hil
    rw [List.length_append, List.length_singleton] at hil
    by_cases hie : i = l.length
    · rw [hie, a, hk]
    · rw [b i (by omega), hs i (by omega)]

/-- Channels added at the end without a number change no number of the others. -/
theorem append_keeps_partial (l m : List Entry) (ha : Acceptable (l ++ m)) (hm : ∀ e ∈ m, wants e = none) :
    ∀ i, i < l.length → number (l ++ m) i = number l i := by
  induction m using List.reverseRecOn with
  | nil => intro i _; rw [List.append_nil]
  | append_singleton m e ih =>
    intro i hi
    rw [← List.append_assoc] at ha ⊢
    obtain ⟨k, _, _, _, _, _, h1, _⟩ := load_one (l ++ m) e ha (inv _ (acceptable_init ha))
    rw [(h1 (hm e (List.mem_append_right _ List.mem_cons_self))).2 i (by rw [List.length_append]; omega)]
    exact ih (acceptable_init ha) (fun x hx => hm x (List.mem_append_left _ hx)) i hi

/-- Full claims: every `channel_number` is honoured or the file is refused; adding channels at the end changes no number. -/
def NumberHonoured : Prop := ∀ (l : List Entry), Acceptable l → ∀ (i : Nat) (e : Entry) (n : Int), l[i]? = some e → e.num = some n → number l i = some n
def AppendKeeps : Prop := ∀ l m : List Entry, Acceptable (l ++ m) → ∀ i, i < l.length → number (l ++ m) i = number l i

/-- A number asked for twice goes to the last channel, silently. -/
theorem twice_violation : ¬ NumberHonoured ∧ ∀ (l : List Entry) (e : Entry) (n : Int) (i : Nat), Acceptable (l ++ [e]) → wants e = some n →
    i < l.length → number l i = some n → number (l ++ [e]) i ≠ some n ∧ number (l ++ [e]) l.length = some n := by
  constructor
  · intro h
    have h1 := h [{ num := some 5 }, { num := some 5 }] ⟨by decide, by decide⟩ 0 { num := some 5 } 5 rfl rfl
    have e : number [{ num := some 5 }, { num := some 5 }] 0 = some 0 := by decide +kernel
    rw [e] at h1
    exact absurd h1 (by decide)
  · intro l e n i ha hw hi hn
    obtain ⟨k, _, _, hnk, _, _, _, h2⟩ := load_one l e ha (inv l (acceptable_init ha))
    obtain ⟨a, b, _⟩ := h2 n hw
    refine ⟨?_, a⟩
    rw [b i hi hn]
    intro hkn
    exact hnk i hi (by rw [hn, Option.some.inj hkn])

/-- The number of an action trigger is not honoured: with and without it the numbers are the same. -/
theorem trigger_violation (l m : List Entry) (n : Int) : loaded (l ++ { trigger := true, num := some n } :: m) = loaded (l ++ { trigger := true } :: m) := by
  unfold loaded
  rw [opsFrom_append, opsFrom_append]
  rfl

/-- A channel added at the end with the number of another takes it: the server sees other channels under known numbers. -/
theorem append_violation : ¬ AppendKeeps := by
  intro h
  have h1 := h [Entry.mk false none, Entry.mk false none] [{ num := some 0 }] ⟨by decide, by decide⟩ 0 (by decide)
  have e : number ([Entry.mk false none, Entry.mk false none] ++ [{ num := some 0 }]) 0 = some 2 ∧ number [Entry.mk false none, Entry.mk false none] 0 = some 0 := by decide +kernel
  rw [e.1, e.2] at h1
  exact absurd h1 (by decide)

/-- Non-vacuity. -/
example : Acceptable [{}, { num := some 5 }, {}, { num := some 0 }] ∧ (List.range 4).map (number [{}, { num := some 5 }, {}, { num := some 0 }]) = [some 2, some 5, some 1, some 0] := by
  refine ⟨⟨by decide, by decide⟩, by decide +kernel⟩

end Verif.LinYaml
