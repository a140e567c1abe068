import Verif.Html.Lemmas

/-!
# C77, C78: the configuration page

C77: whatever text is stored, the page shows exactly that text and keeps its structure; passwords are not
on it. C78: what is filled in is what gets stored, and opening the page and pressing SAVE changes nothing.
-/

namespace Verif.Html
open Verif.Tools Verif.Mqtt

/-! ## C77: text in the page -/

/-- **C77.** Every text sent by `sendSafe` is read back by a browser as that text. -/
theorem escaped_reads_back (s : List Nat) (h : s.length ≤ 8000) : meaning (safe s) = s := by
  rw [safe_eq s h, meaning_esc]

/-- **C77.** No text sent by `sendSafe` contains a character that could end an attribute or start a tag. -/
theorem escaped_is_inert (s : List Nat) : markup (safe s) = [] := by
  rw [markup, List.filter_eq_nil_iff]
  intro x hx
  rw [safe_take] at hx
  have := mem_esc _ x hx
  simp; omega

example : safe (txt "a<b>&\"c'") = txt "a&lt;b&gt;&amp;&quot;c&apos;" ∧ markup (txt "<a b=\"c\">") = txt "<\"\">" := by decide +kernel

/-- The page without the texts the two raw fields send as they are: the network name and the address of
the update server. -/
def Raw (c : Cfg) : List Nat := c.ssid.getD [] ++ c.url.getD []

/-- Two configurations with the same switches: only texts, numbers and passwords differ. -/
def SameSwitches (c d : Cfg) : Prop :=
  (c.wifiOff == 0) = (d.wifiOff == 0) ∧ c.supla = d.supla ∧ c.mqtt = d.mqtt ∧ c.tls = d.tls ∧ c.auth = d.auth ∧
  c.retain = d.retain ∧ c.sec = d.sec ∧ c.ssid.isSome = d.ssid.isSome ∧ c.url.isSome = d.url.isSome

/-- The full claim: the structure of the page does not depend on the texts stored. -/
def StructureFixed : Prop := ∀ (o : Opts) (c d : Cfg), SameSwitches c d → markup (page o c) = markup (page o d)

theorem markup_append (a b : List Nat) : markup (a ++ b) = markup a ++ markup b := by simp [markup]

theorem markup_text (p : List Nat) (v : Option (List Nat)) : markup (textField p v) = markup p ++ markup (txt "\">" ++ txt "</div>") := by
  cases v <;> simp [textField, markup_append, escaped_is_inert]

theorem markup_num (p : List Nat) (n : Nat) : markup (numField p n) = markup p ++ markup (txt "\">" ++ txt "</div>") := by
  have : markup (number n) = [] := by
    rw [markup, List.filter_eq_nil_iff]
    intro x hx
    have := (decimal_text n).2 x hx
    simp; omega
  simp [numField, markup_append, this]

theorem markup_ca (v : Option (List Nat)) : markup (caField v) = markup caBefore ++ markup (txt "</textarea>" ++ (txt "</div>" ++ txt "</div>")) := by
  cases v with
  | none => simp [caField, markup_append]
  | some v =>
    simp only [caField]
    split <;> simp [markup_append, escaped_is_inert]

theorem markup_none (v : List Nat) (h : ∀ x ∈ v, x ≠ 60 ∧ x ≠ 62 ∧ x ≠ 34 ∧ x ≠ 39) : markup v = [] := by
  rw [markup, List.filter_eq_nil_iff]
  intro x hx
  have := h x hx
  simp; omega

/-- **C77.** The tags and attributes of the page are the same for all texts, except for a network name or
update server address with a quote or angle bracket in it. -/
theorem structure_fixed_partial (o : Opts) (c d : Cfg) (h : SameSwitches c d)
    (hc : ∀ x ∈ Raw c, x ≠ 60 ∧ x ≠ 62 ∧ x ≠ 34 ∧ x ≠ 39) (hd : ∀ x ∈ Raw d, x ≠ 60 ∧ x ≠ 62 ∧ x ≠ 34 ∧ x ≠ 39) :
    markup (page o c) = markup (page o d) := by
  obtain ⟨h1, h2, h3, h4, h5, h6, h7, h8, h9⟩ := h
  have hs : ∀ c : Cfg, (∀ x ∈ Raw c, x ≠ 60 ∧ x ≠ 62 ∧ x ≠ 34 ∧ x ≠ 39) → markup (ssidField c) =
      markup (field ++ (labelFor (txt "sid") (txt "Network name") ++ (txt "<input " ++ nameAndId (txt "sid")))) ++
      ((if c.ssid.isSome then markup (txt "value=\"") else []) ++ markup (txt "\">" ++ txt "</div>")) := by
    intro c hc
    unfold ssidField
    cases hv : c.ssid with
    | none => simp [markup_append]
    | some v =>
      have := markup_none v (fun x hx => hc x (by simp [Raw, hv, hx]))
      simp [markup_append, this]
  have hu : ∀ c : Cfg, (∀ x ∈ Raw c, x ≠ 60 ∧ x ≠ 62 ∧ x ≠ 34 ∧ x ≠ 39) → markup (urlField c) =
      markup (field ++ (labelFor (txt "swupdateurl") (txt "Update server address") ++ (txt "<input " ++ nameAndId (txt "swupdateurl")))) ++
      ((if c.url.isSome then markup (txt " value=\"") else []) ++ markup (txt "\">" ++ txt "</div>")) := by
    intro c hc
    unfold urlField
    cases hv : c.url with
    | none => simp [markup_append]
    | some v =>
      have := markup_none v (fun x hx => hc x (by simp [Raw, hv, hx]))
      simp [markup_append, this]
  have hsw : wifiSwitch (c.wifiOff == 0) = wifiSwitch (d.wifiOff == 0) := by rw [h1]
  have hw : markup (if o.wifi then wifiPart o c else []) = markup (if o.wifi then wifiPart o d else []) := by
    split
    · simp only [wifiPart, markup_append, hsw, hs c hc, hs d hd, h8]
    · rfl
  have hq : markup (if o.update then urlField c else []) = markup (if o.update then urlField d else []) := by
    split
    · rw [hu c hc, hu d hd, h9]
    · rfl
  have hm : markup (mqttPart o c) = markup (mqttPart o d) := by
    simp only [mqttPart, markup_append, markup_text, markup_num, h3, h4, h5, h6]
  have hp : markup (protocolPart o c) = markup (protocolPart o d) := by
    have : markup (if o.addMqtt then mqttPart o c else []) = markup (if o.addMqtt then mqttPart o d else []) := by
      split
      · exact hm
      · rfl
    simp only [protocolPart, markup_append, markup_text, markup_ca, h2, h3, h7, this]
  simp only [page, markup_append, hw, hp, hq]

/-- An ordinary configuration. -/
def home : Cfg :=
  { ssid := some (txt "home"), wpw := some (txt "secret"), server := some (txt "svr1.supla.org"), email := some (txt "o'neil@x.y"),
    ca := none, mserver := none, muser := none, mpasswd := none, mprefix := none, url := none, sec := 0, wifiOff := 0, supla := true,
    mqtt := false, tls := false, auth := true, retain := false, port := none, qos := none }

/-- All elements. -/
def everything : Opts := { wifi := true, many := true, addMqtt := true, concurrent := true, update := true }

example : SameSwitches home { home with email := some (txt "<script>"), ssid := some (txt "a b") } ∧
    (∀ x ∈ Raw { home with email := some (txt "<script>"), ssid := some (txt "a b") }, x ≠ 60 ∧ x ≠ 62 ∧ x ≠ 34 ∧ x ≠ 39) := by
  unfold SameSwitches; decide +kernel

/-- **C77 is false as stated.** A network name is sent as it is: one with a quote and angle brackets in it
(any neighbour can pick the name of a network) puts tags into the page. -/
theorem structure_fixed_violation : ¬ StructureFixed := by
  intro h
  have := h everything home { home with ssid := some (txt "\"><script>") } (by unfold SameSwitches; decide +kernel)
  revert this; decide +kernel

/-- The full claim about the two raw fields: the page shows the network name that is stored. -/
def NameShown : Prop := ∀ (c : Cfg) (v : List Nat), c.ssid = some v → submitted (ssidField c) = [(txt "sid", v)]

/-- **C77 is false as stated.** A network called `A&lt;B` is shown as `A<B`; one with a quote is cut. -/
theorem name_shown_violation : ¬ NameShown := by
  intro h
  have := h { home with ssid := some (txt "A&lt;B") } _ rfl
  revert this; decide +kernel

/-- **C77.** The page is the same whatever the passwords are. -/
theorem passwords_not_shown (o : Opts) (c : Cfg) (p q : Option (List Nat)) : page o { c with wpw := p, mpasswd := q } = page o c := rfl

/-! ## What the page submits -/

/-- The texts are texts, within the limits of their setters, and the certificate has the line ends a
browser sends and fits into the buffer of the parser. -/
structure Fits (c : Cfg) : Prop where
  ssid : ∀ v, c.ssid = some v → Text v ∧ v.length ≤ 32
  server : ∀ v, c.server = some v → Text v ∧ v.length ≤ 64
  email : ∀ v, c.email = some v → Text v ∧ v.length ≤ 255
  ca : ∀ v, c.ca = some v → Text v ∧ (formEnc v).length < 4000
  mserver : ∀ v, c.mserver = some v → Text v ∧ v.length ≤ 64
  muser : ∀ v, c.muser = some v → Text v ∧ v.length ≤ 255
  mprefix : ∀ v, c.mprefix = some v → Text v ∧ v.length ≤ 48
  url : ∀ v, c.url = some v → Text v ∧ v.length ≤ 201
  sec : c.sec ≤ 2
  qos : c.qosOf ≤ 2

/-- The texts that are put into the page as they are have no quote and no ampersand in them, and the lines of
the certificate end the way a browser ends them (and it does not begin with an empty line). -/
structure Shown (c : Cfg) : Prop where
  ssid : ∀ v, c.ssid = some v → 34 ∉ v ∧ 38 ∉ v
  url : ∀ v, c.url = some v → 34 ∉ v ∧ 38 ∉ v
  ca : ∀ v, c.ca = some v → toCrLf (dropFirstLf (toLf v)) = v

/-- The fields of the page filled in with the values of the settings and the given new passwords. -/
def filled (o : Opts) (c : Cfg) (wp mp : List Nat) : List (List Nat × List Nat) :=
  (if o.wifi then (if o.many then (if c.wifiOff == 0 then [(txt "wifi_en", txt "on")] else []) else []) ++
    ([(txt "sid", c.ssid.getD [])] ++ [(txt "wpw", wp)]) else []) ++
  ((if !o.concurrent && o.addMqtt then [(txt "pro", if c.mqtt then txt "1" else txt "0")] else []) ++
  ((if o.concurrent then [(txt "protocol_supla", if c.supla then txt "1" else txt "0")] else []) ++
  ([(txt "svr", c.server.getD [])] ++ ([(txt "eml", c.email.getD [])] ++
  ([(txt "sec", if c.sec == 2 then txt "2" else if c.sec == 1 then txt "1" else txt "0")] ++
  ([(txt "custom_ca", c.ca.getD [])] ++
  ((if o.addMqtt then (if o.concurrent then [(txt "protocol_mqtt", if c.mqtt then txt "1" else txt "0")] else []) ++
    ([(txt "mqttserver", c.mserver.getD [])] ++ ([(txt "mqtttls", if c.tls then txt "1" else txt "0")] ++
    ([(txt "mqttport", decimalText c.portOf)] ++ ([(txt "mqttauth", if c.auth then txt "1" else txt "0")] ++
    ([(txt "mqttuser", c.muser.getD [])] ++ ([(txt "mqttpasswd", mp)] ++ ([(txt "mqttprefix", c.mprefix.getD [])] ++
    ([(txt "mqttqos", decimalText c.qosOf)] ++ [(txt "mqttretain", if c.retain then txt "1" else txt "0")])))))))) else []) ++
  ((if o.update then [(txt "swupdateurl", c.url.getD [])] else []) ++ [(txt "rbt", txt "0")]))))))))

theorem shows_text (before k len : List Nat) (v : Option (List Nat)) (hv : ∀ x, v = some x → x.length ≤ 8000)
    (h : (read (.text []) before).2 = .quoted 34 (txt "input") ([(txt "name", k), (txt "id", k), (txt "maxlength", len)]) (txt "value") [])
    (hg : gather .top (read (.text []) before).1 = ([], .top)) : Shows (textField before v) [(k, v.getD [])] := by
  have h0 : attr "name" [(txt "name", k), (txt "id", k), (txt "maxlength", len)] = some k := rfl
  have h1 : attr "type" [(txt "name", k), (txt "id", k), (txt "maxlength", len)] = none := rfl
  have h2 : attr "value" [(txt "name", k), (txt "id", k), (txt "maxlength", len)] = none := rfl
  cases v with
  | none => exact Shows.input before [] _ k (by simp) h hg h0 (by rw [h1]; simp) h2
  | some v =>
    have := Shows.input before (safe v) _ k ?_ h hg h0 (by rw [h1]; simp) h2
    · rw [escaped_reads_back v (hv v rfl)] at this; exact this
    · intro hx
      rw [safe_take] at hx
      exact absurd rfl (mem_esc _ _ hx).2.1

theorem digits_plain (n : Nat) : 34 ∉ number n ∧ 38 ∉ number n := by
  refine ⟨fun h => ?_, fun h => ?_⟩ <;> · have := (decimal_text n).2 _ h; omega

theorem shows_num (before k : List Nat) (as : List (List Nat × List Nat)) (n : Nat)
    (h : (read (.text []) before).2 = .quoted 34 (txt "input") as (txt "value") [])
    (hg : gather .top (read (.text []) before).1 = ([], .top)) (h0 : attr "name" as = some k)
    (h1 : attr "type" as ≠ some (txt "checkbox")) (h2 : attr "value" as = none) :
    Shows (numField before n) [(k, decimalText n)] := by
  have := Shows.input before (number n) as k (digits_plain n).1 h hg h0 h1 h2
  rw [meaning_plain _ (digits_plain n).2] at this
  exact this

theorem length_formEnc_ge (s : List Nat) : s.length ≤ (formEnc s).length := by
  induction s with
  | nil => simp [formEnc]
  | cons c s ih =>
    have : 1 ≤ (formChar c).length := by unfold formChar; repeat' split
                                         all_goals simp
    simp [formEnc]; omega

theorem shows_ca (v : Option (List Nat)) (hv : ∀ x, v = some x → x.length < 4000 ∧ toCrLf (dropFirstLf (toLf x)) = x) :
    Shows (caField v) [(txt "custom_ca", v.getD [])] := by
  have hb : (read (.text []) caBefore).2 = .text [] := by decide +kernel
  have hg : gather .top (read (.text []) caBefore).1 = ([], .area (txt "custom_ca") []) := by decide +kernel
  have key : ∀ t : List Nat, 60 ∉ t → Shows (caBefore ++ t ++ txt "</textarea>" ++ txt "</div>" ++ txt "</div>") [(txt "custom_ca", areaValue t)] := by
    intro t ht
    have e : caBefore ++ t ++ txt "</textarea>" ++ txt "</div>" ++ txt "</div>" = caBefore ++ (t ++ (60 :: txt "/textarea></div></div>")) := by
      simp; rfl
    have hend : read (.text ([] ++ t)) (60 :: txt "/textarea></div></div>")
        = ([.text t, .tag (txt "/textarea") [], .text [], .tag (txt "/div") [], .text [], .tag (txt "/div") []], .text []) := by rfl
    have hall : read (.text []) (caBefore ++ (t ++ (60 :: txt "/textarea></div></div>")))
        = ((read (.text []) caBefore).1 ++ [.text t, .tag (txt "/textarea") [], .text [], .tag (txt "/div") [], .text [], .tag (txt "/div") []], .text []) := by
      rw [read_append, hb, read_append, read_text t ht, hend]; simp
    rw [e]
    refine ⟨by rw [hall], ?_⟩
    rw [hall]
    show gather .top ((read (.text []) caBefore).1 ++ _) = _
    rw [gather_append, hg]
    rfl
  cases v with
  | none => exact key [] (by simp)
  | some v =>
    obtain ⟨h1, h2⟩ := hv v rfl
    have := key (safe v) (fun hx => by rw [safe_take] at hx; exact absurd rfl (mem_esc _ _ hx).2.2.1)
    rw [areaValue, escaped_reads_back v (by omega), h2] at this
    simp only [caField]
    rw [if_pos h1]
    exact this

theorem shows_ssid (c : Cfg) (h : ∀ v, c.ssid = some v → 34 ∉ v ∧ 38 ∉ v) : Shows (ssidField c) [(txt "sid", c.ssid.getD [])] := by
  unfold ssidField
  cases hv : c.ssid with
  | none => decide +kernel
  | some v =>
    obtain ⟨h1, h2⟩ := h v hv
    have := Shows.input (field ++ labelFor (txt "sid") (txt "Network name") ++ txt "<input " ++ nameAndId (txt "sid") ++ txt "value=\"") v
      [(txt "name", txt "sid"), (txt "id", txt "sid")] (txt "sid") h1 (by decide +kernel) (by decide +kernel) (by decide +kernel)
      (by decide +kernel) (by decide +kernel)
    rw [meaning_plain v h2] at this
    simpa only [List.append_assoc, Option.getD_some] using this

theorem shows_url (c : Cfg) (h : ∀ v, c.url = some v → 34 ∉ v ∧ 38 ∉ v) : Shows (urlField c) [(txt "swupdateurl", c.url.getD [])] := by
  unfold urlField
  cases hv : c.url with
  | none => decide +kernel
  | some v =>
    obtain ⟨h1, h2⟩ := h v hv
    have := Shows.input (field ++ labelFor (txt "swupdateurl") (txt "Update server address") ++ txt "<input " ++ nameAndId (txt "swupdateurl") ++
      txt " value=\"") v [(txt "name", txt "swupdateurl"), (txt "id", txt "swupdateurl")] (txt "swupdateurl") h1 (by decide +kernel)
      (by decide +kernel) (by decide +kernel) (by decide +kernel) (by decide +kernel)
    rw [meaning_plain v h2] at this
    simpa only [List.append_assoc, Option.getD_some] using this

theorem shows_wifi (o : Opts) (c : Cfg) (h : ∀ v, c.ssid = some v → 34 ∉ v ∧ 38 ∉ v) :
    Shows (wifiPart o c) ((if o.many then (if c.wifiOff == 0 then [(txt "wifi_en", txt "on")] else []) else []) ++
      ([(txt "sid", c.ssid.getD [])] ++ [(txt "wpw", [])])) := by
  have hsw : ∀ b : Bool, Shows (wifiSwitch b) (if b then [(txt "wifi_en", txt "on")] else []) := by decide +kernel
  have : wifiPart o c = txt "<h3>Wi-Fi Settings</h3>" ++ ((if o.many then wifiSwitch (c.wifiOff == 0) else []) ++ (ssidField c ++ passField)) := by
    simp [wifiPart]
  rw [this]
  refine Shows.skip (by decide +kernel) (Shows.append ?_ ((shows_ssid c h).append (by decide +kernel)))
  exact Shows.ite _ (fun _ => hsw _) (fun _ => Shows.nil)

theorem shows_mqtt (o : Opts) (c : Cfg) (hf : Fits c) :
    Shows (mqttPart o c) ((if o.concurrent then [(txt "protocol_mqtt", if c.mqtt then txt "1" else txt "0")] else []) ++
    ([(txt "mqttserver", c.mserver.getD [])] ++ ([(txt "mqtttls", if c.tls then txt "1" else txt "0")] ++
    ([(txt "mqttport", decimalText c.portOf)] ++ ([(txt "mqttauth", if c.auth then txt "1" else txt "0")] ++
    ([(txt "mqttuser", c.muser.getD [])] ++ ([(txt "mqttpasswd", [])] ++ ([(txt "mqttprefix", c.mprefix.getD [])] ++
    ([(txt "mqttqos", decimalText c.qosOf)] ++ [(txt "mqttretain", if c.retain then txt "1" else txt "0")]))))))))) := by
  have h1 : ∀ b : Bool, Shows (mqttSwitch b) [(txt "protocol_mqtt", if b then txt "1" else txt "0")] := by decide +kernel
  have h2 : ∀ b : Bool, Shows (tlsField b) [(txt "mqtttls", if b then txt "1" else txt "0")] := by decide +kernel
  have h3 : ∀ b : Bool, Shows (authField b) [(txt "mqttauth", if b then txt "1" else txt "0")] := by decide +kernel
  have h4 : ∀ b : Bool, Shows (retainField b) [(txt "mqttretain", if b then txt "1" else txt "0")] := by decide +kernel
  have h5 : Shows (retainField c.retain ++ (txt "</div>" ++ (if o.concurrent then txt "</div>" else [])))
      [(txt "mqttretain", if c.retain then txt "1" else txt "0")] := by
    have : Shows (txt "</div>" ++ (if o.concurrent then txt "</div>" else [])) [] := by
      cases o.concurrent <;> decide +kernel
    have := (h4 c.retain).append this
    simpa using this
  unfold mqttPart
  refine (Shows.ite _ (fun _ => h1 _) (fun _ => by decide +kernel)).append ?_
  refine (shows_text mserverBefore (txt "mqttserver") (txt "64") c.mserver (fun x hx => by have := (hf.mserver x hx).2; omega)
    (by decide +kernel) (by decide +kernel)).append ?_
  refine Shows.skip (by decide +kernel) ((h2 _).append ?_)
  refine (shows_num portBefore (txt "mqttport") [(txt "name", txt "mqttport"), (txt "id", txt "mqttport"), (txt "min", txt "1"), (txt "max", txt "65535"),
    (txt "type", txt "number")] c.portOf (by decide +kernel) (by decide +kernel) (by decide +kernel) (by decide +kernel) (by decide +kernel)).append ?_
  refine (h3 _).append ?_
  refine (shows_text muserBefore (txt "mqttuser") (txt "255") c.muser (fun x hx => by have := (hf.muser x hx).2; omega)
    (by decide +kernel) (by decide +kernel)).append ?_
  refine (show Shows mpasswdField [(txt "mqttpasswd", [])] by decide +kernel).append ?_
  refine (shows_text mprefixBefore (txt "mqttprefix") (txt "48") c.mprefix (fun x hx => by have := (hf.mprefix x hx).2; omega)
    (by decide +kernel) (by decide +kernel)).append ?_
  refine (shows_num qosBefore (txt "mqttqos") [(txt "name", txt "mqttqos"), (txt "id", txt "mqttqos"), (txt "min", txt "0"), (txt "max", txt "2"),
    (txt "type", txt "number")] c.qosOf (by decide +kernel) (by decide +kernel) (by decide +kernel) (by decide +kernel) (by decide +kernel)).append h5

theorem shows_page (o : Opts) (c : Cfg) (hf : Fits c) (hr : Shown c) : Shows (page o c) (filled o c [] []) := by
  have h1 : ∀ a b : Bool, Shows (selector a b) [(txt "pro", if b then txt "1" else txt "0")] := by decide +kernel
  have h2 : ∀ a : Bool, Shows (suplaSwitch a) [(txt "protocol_supla", if a then txt "1" else txt "0")] := by decide +kernel
  have h3 : ∀ s : Nat, s ≤ 2 → Shows (secField (s == 0) (s == 1) (s == 2)) [(txt "sec", if s == 2 then txt "2" else if s == 1 then txt "1" else txt "0")] := by
    intro s hs
    have : s = 0 ∨ s = 1 ∨ s = 2 := by omega
    rcases this with rfl | rfl | rfl <;> decide +kernel
  unfold page filled protocolPart
  refine Shows.skip (by decide +kernel) (Shows.skip (by decide +kernel) ?_)
  refine (Shows.ite _ (fun _ => shows_wifi o c hr.ssid) (fun _ => Shows.nil)).append ?_
  refine Shows.skip (by decide +kernel) ?_
  simp only [List.append_assoc]
  refine (Shows.ite _ (fun _ => h1 _ _) (fun _ => Shows.nil)).append ?_
  refine (Shows.ite _ (fun _ => h2 _) (fun _ => by decide +kernel)).append ?_
  refine (shows_text serverBefore (txt "svr") (txt "64") c.server (fun x hx => by have := (hf.server x hx).2; omega)
    (by decide +kernel) (by decide +kernel)).append ?_
  refine (shows_text emailBefore (txt "eml") (txt "255") c.email (fun x hx => by have := (hf.email x hx).2; omega)
    (by decide +kernel) (by decide +kernel)).append ?_
  refine Shows.skip (by decide +kernel) ((h3 c.sec hf.sec).append ?_)
  refine (shows_ca c.ca (fun x hx => ⟨by have := (hf.ca x hx).2; have := length_formEnc_ge x; omega, hr.ca x hx⟩)).append ?_
  refine Shows.skip (by decide +kernel) (Shows.skip (by cases o.concurrent <;> decide +kernel) ?_)
  refine (Shows.ite _ (fun _ => shows_mqtt o c hf) (fun _ => Shows.nil)).append ?_
  refine Shows.skip (by decide +kernel) (Shows.skip (by decide +kernel) ?_)
  refine (Shows.ite _ (fun _ => shows_url c hr.url) (fun _ => Shows.nil)).append ?_
  refine Shows.skip (by decide +kernel) ?_
  decide +kernel

/-- **C78.** What a browser would submit from the page is: every setting on it with the value that is
stored, and empty passwords. -/
theorem page_shows_settings_partial (o : Opts) (c : Cfg) (hf : Fits c) (hr : Shown c) : submitted (page o c) = filled o c [] [] := by
  rw [submitted, (shows_page o c hf hr).2]

end Verif.Html
