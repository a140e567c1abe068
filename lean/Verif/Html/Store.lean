import Verif.Html.Props

/-!
# C78: what is filled in on the configuration page is what gets stored
-/

namespace Verif.Html
open Verif.Tools Verif.Mqtt

/-- The configuration `d` is what is filled in on the page over the configuration `c`: they agree on
everything that is not on the page, a password field is filled in or left empty, and where the page has
only the choice between two protocols one of them is chosen. -/
structure FilledIn (o : Opts) (c d : Cfg) (wp mp : List Nat) : Prop where
  noWifi : o.wifi = false → d.ssid = c.ssid ∧ d.wpw = c.wpw
  oneNet : (o.wifi && o.many) = false → d.wifiOff = c.wifiOff
  wpw : o.wifi = true → (wp = [] ∧ d.wpw = c.wpw) ∨ (wp ≠ [] ∧ d.wpw = some wp ∧ wp.length ≤ 63 ∧ Text wp)
  noMqtt : o.addMqtt = false → d.mserver = c.mserver ∧ d.muser = c.muser ∧ d.mpasswd = c.mpasswd ∧ d.mprefix = c.mprefix ∧
    d.tls = c.tls ∧ d.auth = c.auth ∧ d.retain = c.retain ∧ d.port = c.port ∧ d.qos = c.qos ∧ d.mqtt = c.mqtt
  mpasswd : o.addMqtt = true → (mp = [] ∧ d.mpasswd = c.mpasswd) ∨ (mp ≠ [] ∧ d.mpasswd = some mp ∧ mp.length ≤ 255 ∧ Text mp)
  noSupla : o.concurrent = false → o.addMqtt = false → d.supla = c.supla
  oneOf : o.concurrent = false → o.addMqtt = true → d.supla = !d.mqtt
  url : o.update = false ∨ d.url.getD [] = [] → d.url.getD [] = c.url.getD []

/-- The fields handled one after the other. -/
def handleAll (o : Opts) (st : Cfg × Bool) (fs : List (List Nat × List Nat)) : Cfg × Bool := fs.foldl (fun st f => handle o st f.1 f.2) st

theorem handleAll_append (o : Opts) (st : Cfg × Bool) (a b : List (List Nat × List Nat)) :
    handleAll o st (a ++ b) = handleAll o (handleAll o st a) b := by simp [handleAll]

theorem handleAll_one (o : Opts) (st : Cfg × Bool) (k v : List Nat) : handleAll o st [(k, v)] = handle o st k v := rfl

theorem handleAll_nil (o : Opts) (st : Cfg × Bool) : handleAll o st [] = st := rfl

theorem keys_known : keyOf (txt "sid") = some .sid ∧ keyOf (txt "wpw") = some .wpw ∧ keyOf (txt "wifi_en") = some .wifi_en ∧
    keyOf (txt "pro") = some .pro ∧ keyOf (txt "protocol_supla") = some .protocol_supla ∧ keyOf (txt "protocol_mqtt") = some .protocol_mqtt ∧
    keyOf (txt "svr") = some .svr ∧ keyOf (txt "eml") = some .eml ∧ keyOf (txt "sec") = some .sec ∧ keyOf (txt "custom_ca") = some .custom_ca ∧
    keyOf (txt "mqttserver") = some .mqttserver ∧ keyOf (txt "mqttport") = some .mqttport ∧ keyOf (txt "mqtttls") = some .mqtttls ∧
    keyOf (txt "mqttauth") = some .mqttauth ∧ keyOf (txt "mqttuser") = some .mqttuser ∧ keyOf (txt "mqttpasswd") = some .mqttpasswd ∧
    keyOf (txt "mqttprefix") = some .mqttprefix ∧ keyOf (txt "mqttqos") = some .mqttqos ∧ keyOf (txt "mqttretain") = some .mqttretain ∧
    keyOf (txt "swupdateurl") = some .swupdateurl ∧ keyOf (txt "rbt") = none := by decide +kernel

theorem isOne_flag (b : Bool) : isOne (if b then txt "1" else txt "0") = b := by revert b; decide +kernel

theorem sec_flag (s : Nat) (h : s ≤ 2) : setSec (if s == 2 then txt "2" else if s == 1 then txt "1" else txt "0") = s := by
  have : s = 0 ∨ s = 1 ∨ s = 2 := by omega
  rcases this with rfl | rfl | rfl <;> decide +kernel

theorem portOf_range (c : Cfg) : 1 ≤ c.portOf ∧ c.portOf ≤ 65536 := by
  unfold Cfg.portOf
  repeat' split
  all_goals omega

theorem port_flag (c : Cfg) : setPort (stringToUInt (decimalText c.portOf)) = some c.portOf := by
  have := portOf_range c
  rw [uint_round_trip _ (by omega), setPort, if_neg (by omega)]

theorem qos_flag (c : Cfg) (h : c.qosOf ≤ 2) : setQos (stringToUInt (decimalText c.qosOf)) = some c.qosOf := by
  rw [uint_round_trip _ (by omega), setQos, if_neg (by omega), if_neg (by omega)]

theorem setText_fits (max : Nat) (v : List Nat) (old : Option (List Nat)) (h : v.length ≤ max) : setText max v old = some v := by
  rw [setText, if_neg (by omega)]

theorem opt_len (v : Option (List Nat)) (n : Nat) (h : ∀ x, v = some x → Text x ∧ x.length ≤ n) : (v.getD []).length ≤ n := by
  cases v with
  | none => simp
  | some x => exact (h x rfl).2

/-- The configuration after the Wi-Fi fields. -/
theorem handled_wifi (o : Opts) (c d : Cfg) (wp mp : List Nat) (hf : Fits d) (hi : FilledIn o c d wp mp) :
    ∃ x y z b, handleAll o (c, false) (if o.wifi then (if o.many then (if d.wifiOff == 0 then [(txt "wifi_en", txt "on")] else []) else []) ++
      ([(txt "sid", d.ssid.getD [])] ++ [(txt "wpw", wp)]) else []) = ({ c with ssid := x, wpw := y, wifiOff := z }, b) ∧
      x.getD [] = d.ssid.getD [] ∧ y.getD [] = d.wpw.getD [] ∧ ((o.wifi && o.many && !b) = false → (z == 0) = (d.wifiOff == 0)) ∧
      ((o.wifi && o.many) = true → b = (d.wifiOff == 0)) := by
  have k := keys_known
  cases hw : o.wifi with
  | false =>
    obtain ⟨h1, h2⟩ := hi.noWifi hw
    have h3 := hi.oneNet (by simp [hw])
    exact ⟨c.ssid, c.wpw, c.wifiOff, false, rfl, by rw [h1], by rw [h2], by rw [h3]; simp, by simp⟩
  | true =>
    have hs : (d.ssid.getD []).length ≤ 32 := opt_len _ _ hf.ssid
    have hp : ∀ st : Cfg × Bool, st.1.wpw = c.wpw → ∃ x, handle o st (txt "wpw") wp = ({ st.1 with wpw := x }, st.2) ∧ x.getD [] = d.wpw.getD [] := by
      intro st hst
      rcases hi.wpw hw with ⟨h1, h2⟩ | ⟨h1, h2, h3, _⟩
      · refine ⟨st.1.wpw, ?_, by rw [hst, h2]⟩
        simp [handle, k, hw, h1]
      · refine ⟨some wp, ?_, by rw [h2]⟩
        have : wp.length > 0 := by cases wp with
          | nil => exact absurd rfl h1
          | cons _ _ => simp
        simp [handle, k, hw, this, setText_fits _ _ _ h3]
    have hsid : ∀ st : Cfg × Bool, handle o st (txt "sid") (d.ssid.getD []) = ({ st.1 with ssid := some (d.ssid.getD []) }, st.2) := by
      intro st; simp [handle, k, hw, setText_fits _ _ _ hs]
    have hen : ∀ st : Cfg × Bool, handle o st (txt "wifi_en") (txt "on") = ({ st.1 with wifiOff := 0 }, true) := by
      intro st; simp [handle, k, hw]
    rw [if_pos rfl]
    cases hm : o.many with
    | false =>
      have h3 := hi.oneNet (by simp [hm])
      obtain ⟨x, hx1, hx2⟩ := hp ({ c with ssid := some (d.ssid.getD []) }, false) rfl
      refine ⟨some (d.ssid.getD []), x, c.wifiOff, false, ?_, rfl, hx2, by rw [h3]; simp, by simp⟩
      simp only [handleAll_append, handleAll_one]
      rw [hsid, ← hx1]; rfl
    | true =>
      by_cases h0 : d.wifiOff = 0
      · obtain ⟨x, hx1, hx2⟩ := hp ({ c with wifiOff := 0, ssid := some (d.ssid.getD []) }, true) rfl
        refine ⟨some (d.ssid.getD []), x, 0, true, ?_, rfl, hx2, by simp [h0], by simp [h0]⟩
        simp only [if_pos, h0, handleAll_append, handleAll_one]
        simp only [beq_self_eq_true, if_true, handleAll_one]
        rw [hen, hsid, ← hx1]
      · obtain ⟨x, hx1, hx2⟩ := hp ({ c with ssid := some (d.ssid.getD []) }, false) rfl
        refine ⟨some (d.ssid.getD []), x, c.wifiOff, false, ?_, rfl, hx2, by simp, by simp [h0]⟩
        have : (d.wifiOff == 0) = false := by simp [h0]
        simp only [if_true, this, handleAll_append, handleAll_one]
        simp only [Bool.false_eq_true, if_false, handleAll_nil]
        rw [hsid, ← hx1]

/-- The MQTT fields handled. -/
theorem handled_mqtt (o : Opts) (c d : Cfg) (wp mp : List Nat) (hf : Fits d) (hi : FilledIn o c d wp mp) (ha : o.addMqtt = true) :
    ∃ x : Option (List Nat), x.getD [] = d.mpasswd.getD [] ∧ ∀ st : Cfg × Bool, st.1.mpasswd = c.mpasswd → handleAll o st ((if o.concurrent then [(txt "protocol_mqtt", if d.mqtt then txt "1" else txt "0")] else []) ++
    ([(txt "mqttserver", d.mserver.getD [])] ++ ([(txt "mqtttls", if d.tls then txt "1" else txt "0")] ++
    ([(txt "mqttport", decimalText d.portOf)] ++ ([(txt "mqttauth", if d.auth then txt "1" else txt "0")] ++
    ([(txt "mqttuser", d.muser.getD [])] ++ ([(txt "mqttpasswd", mp)] ++ ([(txt "mqttprefix", d.mprefix.getD [])] ++
    ([(txt "mqttqos", decimalText d.qosOf)] ++ [(txt "mqttretain", if d.retain then txt "1" else txt "0")])))))))))
    = ({ st.1 with mqtt := if o.concurrent then d.mqtt else st.1.mqtt, mserver := some (d.mserver.getD []), tls := d.tls, port := some d.portOf, auth := d.auth, muser := some (d.muser.getD []), mpasswd := x, mprefix := some (d.mprefix.getD []), qos := some d.qosOf, retain := d.retain }, st.2) := by
  have k := keys_known
  have h1 : (d.mserver.getD []).length ≤ 64 := opt_len _ _ hf.mserver
  have h2 : (d.muser.getD []).length ≤ 255 := opt_len _ _ hf.muser
  have h3 : (d.mprefix.getD []).length ≤ 48 := opt_len _ _ hf.mprefix
  have hp : ∃ x : Option (List Nat), x.getD [] = d.mpasswd.getD [] ∧ ∀ st : Cfg × Bool, st.1.mpasswd = c.mpasswd →
      handle o st (txt "mqttpasswd") mp = ({ st.1 with mpasswd := x }, st.2) := by
    rcases hi.mpasswd ha with ⟨e1, e2⟩ | ⟨e1, e2, e3, _⟩
    · refine ⟨c.mpasswd, by rw [e2], ?_⟩
      intro st hst
      rw [← hst]
      simp [handle, k, e1]
    · refine ⟨some mp, by rw [e2], ?_⟩
      intro st hst
      have : mp.length > 0 := by cases mp with
        | nil => exact absurd rfl e1
        | cons _ _ => simp
      simp [handle, k, this, setText_fits _ _ _ e3]
  obtain ⟨x, hx, hh⟩ := hp
  refine ⟨x, hx, ?_⟩
  intro st hst
  have a1 : ∀ st : Cfg × Bool, handle o st (txt "protocol_mqtt") (if d.mqtt then txt "1" else txt "0") = ({ st.1 with mqtt := d.mqtt }, st.2) := by
    intro st; simp only [handle, k, isOne_flag]
  have a2 : ∀ st : Cfg × Bool, handle o st (txt "mqttserver") (d.mserver.getD []) = ({ st.1 with mserver := some (d.mserver.getD []) }, st.2) := by
    intro st; simp only [handle, k, setText_fits _ _ _ h1]
  have a3 : ∀ st : Cfg × Bool, handle o st (txt "mqtttls") (if d.tls then txt "1" else txt "0") = ({ st.1 with tls := d.tls }, st.2) := by
    intro st; simp only [handle, k, isOne_flag]
  have a4 : ∀ st : Cfg × Bool, handle o st (txt "mqttport") (decimalText d.portOf) = ({ st.1 with port := some d.portOf }, st.2) := by
    intro st; simp only [handle, k, port_flag]
  have a5 : ∀ st : Cfg × Bool, handle o st (txt "mqttauth") (if d.auth then txt "1" else txt "0") = ({ st.1 with auth := d.auth }, st.2) := by
    intro st; simp only [handle, k, isOne_flag]
  have a6 : ∀ st : Cfg × Bool, handle o st (txt "mqttuser") (d.muser.getD []) = ({ st.1 with muser := some (d.muser.getD []) }, st.2) := by
    intro st; simp only [handle, k, setText_fits _ _ _ h2]
  have a7 : ∀ st : Cfg × Bool, handle o st (txt "mqttprefix") (d.mprefix.getD []) = ({ st.1 with mprefix := some (d.mprefix.getD []) }, st.2) := by
    intro st; simp only [handle, k, setText_fits _ _ _ h3]
  have a8 : ∀ st : Cfg × Bool, handle o st (txt "mqttqos") (decimalText d.qosOf) = ({ st.1 with qos := some d.qosOf }, st.2) := by
    intro st; simp only [handle, k, qos_flag d hf.qos]
  have a9 : ∀ st : Cfg × Bool, handle o st (txt "mqttretain") (if d.retain then txt "1" else txt "0") = ({ st.1 with retain := d.retain }, st.2) := by
    intro st; simp only [handle, k, isOne_flag]
  cases o.concurrent
  · simp only [Bool.false_eq_true, if_false, handleAll_append, handleAll_one, handleAll_nil, a2, a3, a4, a5, a6, a7, a8, a9]
    rw [hh _ (by exact hst)]
  · simp only [if_true, handleAll_append, handleAll_one, a1, a2, a3, a4, a5, a6, a7, a8, a9]
    rw [hh _ (by exact hst)]

/-- The whole form handled. -/
theorem handled_all (o : Opts) (c d : Cfg) (wp mp : List Nat) (hf : Fits d) (hi : FilledIn o c d wp mp) :
    (finish o (handleAll o (c, false) (filled o d wp mp))).1.settings = d.settings := by
  have k := keys_known
  obtain ⟨x, y, z, b, hw, hx, hy, hz, hb⟩ := handled_wifi o c d wp mp hf hi
  have a1 : (d.server.getD []).length ≤ 64 := opt_len _ _ hf.server
  have a2 : (d.email.getD []).length ≤ 255 := opt_len _ _ hf.email
  have a3 : (d.url.getD []).length ≤ 201 := opt_len _ _ hf.url
  have b1 : ∀ st : Cfg × Bool, handle o st (txt "svr") (d.server.getD []) = ({ st.1 with server := some (d.server.getD []) }, st.2) := by
    intro st; simp only [handle, k, setText_fits _ _ _ a1]
  have b2 : ∀ st : Cfg × Bool, handle o st (txt "eml") (d.email.getD []) = ({ st.1 with email := some (d.email.getD []) }, st.2) := by
    intro st; simp only [handle, k, setText_fits _ _ _ a2]
  have b3 : ∀ st : Cfg × Bool, handle o st (txt "sec") (if d.sec == 2 then txt "2" else if d.sec == 1 then txt "1" else txt "0")
      = ({ st.1 with sec := d.sec }, st.2) := by
    intro st; simp only [handle, k, sec_flag _ hf.sec]
  have b4 : ∀ st : Cfg × Bool, handle o st (txt "custom_ca") (d.ca.getD []) = ({ st.1 with ca := some (d.ca.getD []) }, st.2) := by
    intro st; simp only [handle, k]
  have b5 : ∀ st : Cfg × Bool, handle o st (txt "protocol_supla") (if d.supla then txt "1" else txt "0") = ({ st.1 with supla := d.supla }, st.2) := by
    intro st; simp only [handle, k, isOne_flag]
  have b6 : ∀ st : Cfg × Bool, handle o st (txt "pro") (if d.mqtt then txt "1" else txt "0") = ({ st.1 with supla := !d.mqtt, mqtt := d.mqtt }, st.2) := by
    intro st
    have e1 : stringToUInt (txt "1") = 1 := by decide +kernel
    have e0 : stringToUInt (txt "0") ≠ 1 := by decide +kernel
    cases d.mqtt
    · simp [handle, k, e0]
    · simp [handle, k, e1]
  have b7 : ∀ st : Cfg × Bool, handle o st (txt "rbt") (txt "0") = st := by
    intro st; simp only [handle, k]
  have b8 : ∃ u : Option (List Nat), u.getD [] = d.url.getD [] ∧ ∀ st : Cfg × Bool, st.1.url = c.url →
      handleAll o st (if o.update then [(txt "swupdateurl", d.url.getD [])] else []) = ({ st.1 with url := u }, st.2) := by
    cases hup : o.update with
    | false => exact ⟨c.url, (hi.url (Or.inl hup)).symm, fun st hst => by rw [← hst]; rfl⟩
    | true =>
      by_cases he : d.url.getD [] = []
      · refine ⟨c.url, (hi.url (Or.inr he)).symm, fun st hst => ?_⟩
        rw [if_pos rfl, handleAll_one, ← hst]
        simp [handle, k, he]
      · refine ⟨some (d.url.getD []), rfl, fun st hst => ?_⟩
        have : (d.url.getD []).length > 0 := by
          cases h : d.url.getD [] with
          | nil => exact absurd h he
          | cons _ _ => simp
        rw [if_pos rfl, handleAll_one]
        simp [handle, k, hup, this, setText_fits _ _ _ a3]
  obtain ⟨u, hu, b8⟩ := b8
  have hfin : ∀ e : Cfg, e.wifiOff = z → (finish o (e, b)).1 = { e with wifiOff := (finish o (e, b)).1.wifiOff } ∧
      ((finish o (e, b)).1.wifiOff == 0) = (d.wifiOff == 0) := by
    intro e he
    unfold finish
    cases hc : (o.wifi && o.many && !b) with
    | false => refine ⟨rfl, ?_⟩; have := hz hc; simp [he, this]
    | true =>
      refine ⟨rfl, ?_⟩
      simp at hc
      have := hb (by simp [hc])
      rw [← this, hc.2]; rfl
  have hset : ∀ e : Cfg, e.wifiOff = z → (finish o (e, b)).1.settings = { e.settings with wifiOn := d.wifiOff == 0 } := by
    intro e he
    obtain ⟨f1, f2⟩ := hfin e he
    rw [f1]
    simp [Cfg.settings, f2, Cfg.portOf, Cfg.qosOf]
  have hport : ∀ e : Cfg, e.port = some d.portOf → e.portOf = d.portOf := by
    intro e he
    have := portOf_range d
    rw [Cfg.portOf, he, Option.getD_some, if_neg (by omega)]
  have hqos : ∀ e : Cfg, e.qos = some d.qosOf → e.qosOf = d.qosOf := by
    intro e he
    rw [Cfg.qosOf, he, Option.getD_some]
  unfold filled
  rw [handleAll_append, hw]
  cases ha : o.addMqtt with
  | false =>
    obtain ⟨n1, n2, n3, n4, n5, n6, n7, n8, n9, n10⟩ := hi.noMqtt ha
    have hsup : o.concurrent = false → c.supla = d.supla := fun h => (hi.noSupla h ha).symm
    cases hc : o.concurrent
    all_goals
      simp only [Bool.and_false, Bool.not_false, Bool.not_true, Bool.false_eq_true, if_false, if_true, handleAll_append, handleAll_one, handleAll_nil, b1, b2, b3, b4, b5]
      rw [b8 _ (by rfl), b7, hset _ (by rfl)]
      simp [Cfg.settings, Cfg.portOf, Cfg.qosOf, hx, hy, hu, n1, n2, n3, n4, n5, n6, n7, n8, n9, n10]
    exact hsup hc
  | true =>
    obtain ⟨m, hm, b9⟩ := handled_mqtt o c d wp mp hf hi ha
    cases hc : o.concurrent with
    | false =>
      have h1 := hi.oneOf hc ha
      rw [hc] at b9
      simp only [Bool.and_true, Bool.not_false, Bool.false_eq_true, if_false, if_true] at b9 ⊢
      rw [handleAll_append, handleAll_one, b6, handleAll_append, handleAll_nil, handleAll_append, handleAll_one, b1,
        handleAll_append, handleAll_one, b2, handleAll_append, handleAll_one, b3, handleAll_append, handleAll_one, b4,
        handleAll_append, b9 _ (by rfl), handleAll_append, b8 _ (by rfl), handleAll_one, b7, hset _ (by rfl)]
      dsimp only [Cfg.settings]
      rw [hport _ rfl, hqos _ rfl, hx, hy, hu, hm, h1]
      rfl
    | true =>
      rw [hc] at b9
      simp only [Bool.not_true, Bool.false_and, Bool.false_eq_true, if_false, if_true] at b9 ⊢
      rw [handleAll_append, handleAll_nil, handleAll_append, handleAll_one, b5, handleAll_append, handleAll_one, b1,
        handleAll_append, handleAll_one, b2, handleAll_append, handleAll_one, b3, handleAll_append, handleAll_one, b4,
        handleAll_append, b9 _ (by rfl), handleAll_append, b8 _ (by rfl), handleAll_one, b7, hset _ (by rfl)]
      dsimp only [Cfg.settings]
      rw [hport _ rfl, hqos _ rfl, hx, hy, hu, hm]
      rfl

/-- Every field of a form is one that fits in the buffers of the parser. -/
def Sendable (fs : List (List Nat × List Nat)) : Prop :=
  ∀ f ∈ fs, (Text f.1 ∧ 61 ∉ f.1 ∧ f.1.length < 16) ∧ Text f.2 ∧ (formEnc f.2).length < 4000

theorem Sendable.append {a b : List (List Nat × List Nat)} (ha : Sendable a) (hb : Sendable b) : Sendable (a ++ b) := by
  intro f hf
  rcases List.mem_append.1 hf with h | h
  · exact ha f h
  · exact hb f h

theorem Sendable.ite {a : List (List Nat × List Nat)} (x : Bool) (ha : x = true → Sendable a) : Sendable (if x then a else []) := by
  cases x with
  | true => exact ha rfl
  | false => intro f hf; cases hf

theorem Sendable.one (k v : List Nat) (hk : Text k ∧ 61 ∉ k ∧ k.length < 16) (hv : Text v ∧ (formEnc v).length < 4000) : Sendable [(k, v)] := by
  intro f hf
  rw [List.mem_singleton] at hf
  subst hf
  exact ⟨hk, hv⟩

theorem short_ok (v : List Nat) (h : Text v) (hl : v.length ≤ 255) : Text v ∧ (formEnc v).length < 4000 := by
  have := length_formEnc v
  exact ⟨h, by omega⟩

theorem opt_ok (v : Option (List Nat)) (n : Nat) (hn : n ≤ 255) (h : ∀ x, v = some x → Text x ∧ x.length ≤ n) :
    Text (v.getD []) ∧ (formEnc (v.getD [])).length < 4000 := by
  cases v with
  | none => exact short_ok _ (by intro b hb; cases hb) (by simp)
  | some x => have := h x rfl; exact short_ok _ this.1 (by show x.length ≤ 255; omega)

instance (s : List Nat) : Decidable (Text s) := inferInstanceAs (Decidable (∀ b ∈ s, _))

theorem num_ok (n : Nat) (h : n ≤ 65536) : Text (decimalText n) ∧ (formEnc (decimalText n)).length < 4000 := by
  refine short_ok _ (fun b hb => by have := (decimal_text n).2 b hb; omega) ?_
  have := Nat.length_toDigits_le_iff (b := 10) (n := n) (k := 5) (by decide) (by decide)
  simp only [decimalText, List.length_map]
  omega

theorem flag_ok (b : Bool) : Text (if b then txt "1" else txt "0") ∧ (formEnc (if b then txt "1" else txt "0")).length < 4000 := by
  cases b <;> decide +kernel

theorem sendable_filled (o : Opts) (c d : Cfg) (wp mp : List Nat) (hf : Fits d) (hi : FilledIn o c d wp mp) : Sendable (filled o d wp mp) := by
  have hw : o.wifi = true → Text wp ∧ (formEnc wp).length < 4000 := by
    intro h
    rcases hi.wpw h with ⟨h1, _⟩ | ⟨_, _, h3, h4⟩
    · rw [h1]; decide +kernel
    · exact short_ok _ h4 (by omega)
  have hm : o.addMqtt = true → Text mp ∧ (formEnc mp).length < 4000 := by
    intro h
    rcases hi.mpasswd h with ⟨h1, _⟩ | ⟨_, _, h3, h4⟩
    · rw [h1]; decide +kernel
    · exact short_ok _ h4 (by omega)
  have hs : Text (if d.sec == 2 then txt "2" else if d.sec == 1 then txt "1" else txt "0") ∧
      (formEnc (if d.sec == 2 then txt "2" else if d.sec == 1 then txt "1" else txt "0")).length < 4000 := by
    cases d.sec == 2 <;> cases d.sec == 1 <;> decide +kernel
  have hca : Text (d.ca.getD []) ∧ (formEnc (d.ca.getD [])).length < 4000 := by
    cases h : d.ca with
    | none => decide +kernel
    | some x => exact hf.ca x h
  have hp := portOf_range d
  have hq := hf.qos
  unfold filled
  refine Sendable.append (Sendable.ite _ (fun h => ?_)) ?_
  · refine Sendable.append (Sendable.ite _ (fun _ => Sendable.ite _ (fun _ => Sendable.one _ _ (by decide +kernel) (by decide +kernel)))) ?_
    exact (Sendable.one _ _ (by decide +kernel) (opt_ok _ 32 (by decide) hf.ssid)).append
      (Sendable.one _ _ (by decide +kernel) (hw h))
  refine Sendable.append (Sendable.ite _ (fun h => Sendable.one _ _ (by decide +kernel) (flag_ok _))) ?_
  refine Sendable.append (Sendable.ite _ (fun h => Sendable.one _ _ (by decide +kernel) (flag_ok _))) ?_
  refine Sendable.append (Sendable.one _ _ (by decide +kernel) (opt_ok _ 64 (by decide) hf.server)) ?_
  refine Sendable.append (Sendable.one _ _ (by decide +kernel) (opt_ok _ 255 (by decide) hf.email)) ?_
  refine Sendable.append (Sendable.one _ _ (by decide +kernel) hs) ?_
  refine Sendable.append (Sendable.one _ _ (by decide +kernel) hca) ?_
  refine Sendable.append (Sendable.ite _ (fun h => ?_)) ?_
  · refine Sendable.append (Sendable.ite _ (fun h => Sendable.one _ _ (by decide +kernel) (flag_ok _))) ?_
    refine Sendable.append (Sendable.one _ _ (by decide +kernel) (opt_ok _ 64 (by decide) hf.mserver)) ?_
    refine Sendable.append (Sendable.one _ _ (by decide +kernel) (flag_ok _)) ?_
    refine Sendable.append (Sendable.one _ _ (by decide +kernel) (num_ok _ (by omega))) ?_
    refine Sendable.append (Sendable.one _ _ (by decide +kernel) (flag_ok _)) ?_
    refine Sendable.append (Sendable.one _ _ (by decide +kernel) (opt_ok _ 255 (by decide) hf.muser)) ?_
    refine Sendable.append (Sendable.one _ _ (by decide +kernel) (hm h)) ?_
    refine Sendable.append (Sendable.one _ _ (by decide +kernel) (opt_ok _ 48 (by decide) hf.mprefix)) ?_
    refine Sendable.append (Sendable.one _ _ (by decide +kernel) (num_ok _ (by omega))) ?_
    exact Sendable.one _ _ (by decide +kernel) (flag_ok _)
  refine Sendable.append (Sendable.ite _ (fun h => Sendable.one _ _ (by decide +kernel) (opt_ok _ 201 (by decide) hf.url))) ?_
  exact Sendable.one _ _ (by decide +kernel) (by decide +kernel)

/-- What the handlers do with what they see. -/
theorem fold_seen (o : Opts) (es : List Web.Event) (fs : List (List Nat × List Nat)) (st : Cfg × Bool)
    (h : es.map Web.seen = fs.map some ++ [none]) : es.foldl (onEvent o) st = finish o (handleAll o st fs) := by
  induction fs generalizing es st with
  | nil =>
    match es, h with
    | [.finish], _ => rfl
    | [.field _ _], h => simp [Web.seen] at h
    | _ :: _ :: _, h => simp at h
  | cons f fs ih =>
    match es, h with
    | .field k v :: es, h =>
      simp only [List.map_cons, List.cons_append, List.cons.injEq, Web.seen, Option.some.injEq] at h
      rw [List.foldl_cons, ih es _ h.2, ← h.1]
      rfl
    | .finish :: _, h => simp [Web.seen] at h

/-- **C78.** A form filled in with settings that fit, sent in any pieces, stores those settings: whatever
the settings were, as long as they agree on what is not on the page. -/
theorem fill_in (o : Opts) (c d : Cfg) (wp mp : List Nat) (hf : Fits d) (hi : FilledIn o c d wp mp)
    (chunks : List (List Nat)) (hc : ∀ x ∈ chunks, x ≠ []) (hb : chunks.flatten = body (filled o d wp mp)) :
    ∃ s, Web.receive 16 4000 chunks (Web.init 16 4000) = some s ∧ (store o c s.events).settings = d.settings := by
  have hs := sendable_filled o c d wp mp hf hi
  obtain ⟨s, h1, h2⟩ := Web.encoded_form_round_trip 16 4000 formEnc (filled o d wp mp)
    (fun f hff => by
      obtain ⟨⟨g1, g2, g3⟩, g4, g5⟩ := hs f hff
      obtain ⟨e1, e2, e3, e4⟩ := formEnc_ok f.2 g4
      exact ⟨g1, g2, g3, g4, g5, e1, e2, e3, e4⟩)
    (by
      intro h
      have : (txt "rbt", txt "0") ∈ filled o d wp mp := by unfold filled; simp
      rw [h] at this
      cases this)
    chunks hc hb
  refine ⟨s, h1, ?_⟩
  rw [store, fold_seen o _ _ _ h2, handled_all o c d wp mp hf hi]

/-- The full claim: opening the page and saving it without changing anything leaves the settings as they are. -/
def OpenAndSave : Prop :=
  ∀ (o : Opts) (c : Cfg), Fits c → (o.concurrent = false → o.addMqtt = true → c.supla = !c.mqtt) →
    ∀ chunks : List (List Nat), (∀ x ∈ chunks, x ≠ []) → chunks.flatten = body (submitted (page o c)) →
    ∃ s, Web.receive 16 4000 chunks (Web.init 16 4000) = some s ∧ (store o c s.events).settings = c.settings

/-- **C78.** Opening the page and saving it without changing anything leaves the settings as they are, if
the network name and the update address have no quote and no ampersand in them. -/
theorem open_and_save_partial (o : Opts) (c : Cfg) (hf : Fits c) (hs : Shown c)
    (h1 : o.concurrent = false → o.addMqtt = true → c.supla = !c.mqtt)
    (chunks : List (List Nat)) (hc : ∀ x ∈ chunks, x ≠ []) (hb : chunks.flatten = body (submitted (page o c))) :
    ∃ s, Web.receive 16 4000 chunks (Web.init 16 4000) = some s ∧ (store o c s.events).settings = c.settings := by
  rw [page_shows_settings_partial o c hf hs] at hb
  exact fill_in o c c [] [] hf ⟨fun _ => ⟨rfl, rfl⟩, fun _ => rfl, fun _ => Or.inl ⟨rfl, rfl⟩,
    fun _ => ⟨rfl, rfl, rfl, rfl, rfl, rfl, rfl, rfl, rfl, rfl⟩, fun _ => Or.inl ⟨rfl, rfl⟩, fun _ _ => rfl, h1, fun _ => rfl⟩ chunks hc hb

/-- A Wi-Fi device with nothing but the Supla protocol. -/
def simple : Opts := { wifi := true, many := false, addMqtt := false, concurrent := false, update := false }

theorem fits_home : Fits home :=
  ⟨by intro v h; injection h with h; subst h; decide +kernel, by intro v h; injection h with h; subst h; decide +kernel,
   by intro v h; injection h with h; subst h; decide +kernel, (by intro v h; cases h), (by intro v h; cases h), (by intro v h; cases h),
   (by intro v h; cases h), (by intro v h; cases h), by decide, by decide⟩

theorem shown_home : Shown home :=
  ⟨by intro v h; injection h with h; subst h; decide +kernel, (by intro v h; cases h), (by intro v h; cases h)⟩

/-- New settings over the old ones: a new server, a new password. -/
example : FilledIn everything home { home with server := some (txt "my<server>"), wpw := some (txt "a&b"), mqtt := true } (txt "a&b") [] :=
  ⟨(by intro h; cases h), (by intro h; cases h), fun _ => Or.inr ⟨by decide +kernel, rfl, by decide +kernel, by decide +kernel⟩,
   (by intro h; cases h), fun _ => Or.inl ⟨rfl, rfl⟩, (by intro h; cases h), (by intro h; cases h), fun _ => rfl⟩

/-! ## What is lost -/

/-- A network called `A&lt;B`. -/
def odd : Cfg := { home with ssid := some (txt "A&lt;B") }

theorem fits_odd : Fits odd :=
  ⟨by intro v h; injection h with h; subst h; decide +kernel, by intro v h; injection h with h; subst h; decide +kernel,
   by intro v h; injection h with h; subst h; decide +kernel, (by intro v h; cases h), (by intro v h; cases h), (by intro v h; cases h),
   (by intro v h; cases h), (by intro v h; cases h), by decide, by decide⟩

/-- **C78 is false as stated.** The network name is put into the page as it is, so it is read back as
something else, and saving the page stores that: the device no longer finds its network. -/
theorem open_and_save_violation : ¬ OpenAndSave := by
  intro h
  obtain ⟨s, h1, h2⟩ := h simple odd fits_odd (by intro _ h; cases h) [body (submitted (page simple odd))] (by decide +kernel) (by simp)
  have : ((Web.receive 16 4000 [body (submitted (page simple odd))] (Web.init 16 4000)).map (fun s => (store simple odd s.events).ssid)) =
      some (some (txt "A<B")) := by decide +kernel
  rw [h1, Option.map_some] at this
  injection this with this
  have h3 := congrArg Settings.ssid h2
  rw [show (store simple odd s.events).settings.ssid = (store simple odd s.events).ssid.getD [] from rfl, this] at h3
  revert h3; decide +kernel

theorem formEnc_append (a b : List Nat) : formEnc (a ++ b) = formEnc a ++ formEnc b := by
  induction a with
  | nil => rfl
  | cons c a ih => simp [formEnc, ih]

/-- A certificate whose encoding is longer than the buffer is cut, and stored cut. -/
theorem ca_cut (o : Opts) (c : Cfg) (w w' : List Nat) (hw : Text (w ++ w')) (hl : (formEnc w).length = 3999) :
    ∃ s, Web.receive 16 4000 [body [(txt "custom_ca", w ++ w')]] (Web.init 16 4000) = some s ∧ (store o c s.events).ca = some w := by
  have hb : body [(txt "custom_ca", w ++ w')] ≠ [] := by
    unfold body; simp [Web.formBody]
  obtain ⟨s, h1, h2, _⟩ := Web.chunks_do_not_matter 16 4000 (by decide) (by decide) [body [(txt "custom_ca", w ++ w')]] (by simp)
    (by simpa using hb) []
  refine ⟨s, h1, ?_⟩
  have hww : Text w := fun b hb => hw b (by simp [hb])
  obtain ⟨e1, e2, e3, _⟩ := formEnc_ok w hww
  rw [show [body [(txt "custom_ca", w ++ w')]].flatten = body [(txt "custom_ca", w ++ w')] by simp, body, Web.fields_of_form] at h2
  · have hi : Web.inBuffer 4000 (formEnc (w ++ w')) = formEnc w ++ 0 :: [] := by
      unfold Web.inBuffer
      rw [formEnc_append, List.take_append, hl, show 4000 - 1 - 3999 = 0 from rfl, List.take_zero, List.append_nil,
        List.take_of_length_le (by omega), hl]
      rfl
    have hd := decode_meaning (formEnc w) [] e3 e2 4000 (by omega)
    rw [← hi, e1] at hd
    simp only [List.map_cons, List.map_nil, List.nil_append, Web.eventOf, hd, Option.map_some, List.cons_append] at h2
    match hs : s.events, h2 with
    | [x, y], h2 =>
      simp only [List.map_cons, List.map_nil, List.cons.injEq, Option.some.injEq, and_true] at h2
      obtain ⟨rfl, rfl⟩ := h2
      have hv : cstr (splice (Web.inBuffer 4000 (formEnc (w ++ w'))) 0 (w ++ [0])) = w := by
        rw [show splice (Web.inBuffer 4000 (formEnc (w ++ w'))) 0 (w ++ [0]) = w ++ 0 :: (Web.inBuffer 4000 (formEnc (w ++ w'))).drop (w.length + 1) by
          simp [splice]]
        exact cstr_text _ _ hww
      have hk : cstr (Web.inBuffer 16 (txt "custom_ca")) = txt "custom_ca" := by decide +kernel
      rw [store, List.foldl_cons, List.foldl_cons, List.foldl_nil, onEvent, onEvent, hk, hv]
      have : handle o (c, false) (txt "custom_ca") w = ({ c with ca := some w }, false) := by
        simp only [handle, keys_known]
      rw [this, finish]
      split <;> rfl
    | [], h2 => simp at h2
    | [_], h2 => simp at h2
    | _ :: _ :: _ :: _, h2 => simp at h2
  · intro f hf
    simp only [List.map_cons, List.map_nil, List.mem_singleton] at hf
    subst hf
    exact ⟨show 61 ∉ txt "custom_ca" by decide +kernel, (formEnc_ok _ hw).2.2.2⟩

/-- The full claim about the certificate: one of a length the page allows (4000 characters) is stored. -/
def CertificateStored : Prop :=
  ∀ (o : Opts) (c : Cfg) (v : List Nat), Text v → v.length ≤ 4000 →
    ∃ s, Web.receive 16 4000 [body [(txt "custom_ca", v)]] (Web.init 16 4000) = some s ∧ (store o c s.events).ca = some v

theorem length_pluses (n : Nat) : (formEnc (List.replicate n 43)).length = 3 * n := by
  induction n with
  | zero => rfl
  | succ n ih =>
    have : (formChar 43).length = 3 := by decide +kernel
    rw [List.replicate_succ, formEnc, List.length_append, ih, this]; omega

set_option maxRecDepth 8192 in
/-- **C78 is false as stated.** A text that takes more than 3999 characters in the body of the form is cut
without a word, although the page lets it be entered. The plus sign and the line end, of which a
certificate is full, take three and six. -/
theorem certificate_stored_violation : ¬ CertificateStored := by
  intro h
  have ht : Text (List.replicate 1333 43 ++ List.replicate 1 43) := by
    intro b hb
    have : b = 43 := by
      rcases List.mem_append.1 hb with h | h
      · exact (List.mem_replicate.1 h).2
      · exact (List.mem_replicate.1 h).2
    omega
  obtain ⟨s, h1, h2⟩ := h everything home (List.replicate 1333 43 ++ List.replicate 1 43) ht
    (by rw [List.length_append, List.length_replicate, List.length_replicate]; decide)
  obtain ⟨s', h3, h4⟩ := ca_cut everything home (List.replicate 1333 43) (List.replicate 1 43) ht (length_pluses _)
  rw [h1] at h3
  injection h3 with h3
  subst h3
  rw [h2] at h4
  injection h4 with h4
  have := congrArg List.length h4
  rw [List.length_append, List.length_replicate, List.length_replicate] at this
  omega

/-! ## Whatever is posted -/

/-- The limits of the places the settings are copied to later. -/
structure Within (c : Cfg) : Prop where
  ssid : (c.ssid.getD []).length ≤ 32
  wpw : (c.wpw.getD []).length ≤ 63
  server : (c.server.getD []).length ≤ 64
  email : (c.email.getD []).length ≤ 255
  mserver : (c.mserver.getD []).length ≤ 64
  muser : (c.muser.getD []).length ≤ 255
  mpasswd : (c.mpasswd.getD []).length ≤ 255
  mprefix : (c.mprefix.getD []).length ≤ 48
  url : (c.url.getD []).length ≤ 201
  sec : c.sec ≤ 2
  qos : c.qosOf ≤ 2

theorem setText_len (max : Nat) (v : List Nat) (old : Option (List Nat)) (h : (old.getD []).length ≤ max) :
    ((setText max v old).getD []).length ≤ max := by
  unfold setText
  split
  · exact h
  · show v.length ≤ max; omega

theorem setSec_le (v : List Nat) : setSec v ≤ 2 := by unfold setSec; split <;> omega

theorem setQos_le (n : Nat) : (setQos n).getD 0 ≤ 2 := by
  unfold setQos
  rw [Option.getD_some]
  repeat' split
  all_goals omega

theorem handle_within (o : Opts) (st : Cfg × Bool) (k v : List Nat) (h : Within st.1) : Within (handle o st k v).1 := by
  obtain ⟨h1, h2, h3, h4, h5, h6, h7, h8, h9, h10, h11⟩ := h
  have e1 := setText_len 32 v _ h1
  have e2 := setText_len 63 v _ h2
  have e3 := setText_len 64 v _ h3
  have e4 := setText_len 255 v _ h4
  have e5 := setText_len 64 v _ h5
  have e6 := setText_len 255 v _ h6
  have e7 := setText_len 255 v _ h7
  have e8 := setText_len 48 v _ h8
  have e9 := setText_len 201 v _ h9
  unfold handle
  split
  all_goals
    repeat' split
    all_goals
      constructor <;> first | assumption | exact setSec_le v | exact setQos_le _

/-- **C78.** Whatever is posted, to whatever page, no setting gets longer than the place it is used in and
the choices stay among those that exist. -/
theorem limits_hold (o : Opts) (c : Cfg) (es : List Web.Event) (h : Within c) : Within (store o c es) := by
  have key : ∀ (es : List Web.Event) (st : Cfg × Bool), Within st.1 → Within (es.foldl (onEvent o) st).1 := by
    intro es
    induction es with
    | nil => exact fun _ h => h
    | cons e es ih =>
      intro st h
      rw [List.foldl_cons]
      refine ih _ ?_
      cases e with
      | field k v => exact handle_within o st _ _ h
      | finish =>
        show Within (finish o st).1
        unfold finish
        split
        · obtain ⟨h1, h2, h3, h4, h5, h6, h7, h8, h9, h10, h11⟩ := h
          exact ⟨h1, h2, h3, h4, h5, h6, h7, h8, h9, h10, h11⟩
        · exact h
  exact key es _ h

example : Within home := by constructor <;> decide +kernel

/-- The full claim about the port: what is stored is a port. -/
def PortValid : Prop := ∀ (o : Opts) (c : Cfg) (es : List Web.Event), c.portOf ≤ 65535 → (store o c es).portOf ≤ 65535

/-- **C78 is false as stated.** 65536 is taken for a port. -/
theorem port_valid_violation : ¬ PortValid := by
  intro h
  have := h everything home [.field (txt "mqttport") (txt "65536")] (by decide +kernel)
  revert this; decide +kernel

end Verif.Html
