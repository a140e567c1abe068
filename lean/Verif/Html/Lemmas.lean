import Verif.Html.Spec

/-!
# Lemmas about escaping, reading and submitting
-/

namespace Verif.Html
open Verif.Tools Verif.Mqtt

/-! ## Escaping -/

/-- What `sendSafe` amounts to, character by character. -/
def esc (s : List Nat) : List Nat := s.flatMap (fun c => if special c then entity c else [c])

theorem esc_cons (c : Nat) (s : List Nat) : esc (c :: s) = (if special c then entity c else [c]) ++ esc s := by
  simp [esc, List.flatMap_cons]

theorem safeLoop_flatten (part s : List Nat) : (safeLoop part s).flatten = part ++ esc s := by
  induction s generalizing part with
  | nil => cases part <;> simp [safeLoop, esc]
  | cons c s ih =>
    rw [safeLoop, esc_cons]
    split
    · rename_i h
      cases part <;> simp [ih]
    · rw [ih]; simp

theorem safe_eq (s : List Nat) (h : s.length ≤ 8000) : safe s = esc s := by
  rw [safe, sendSafe, safeLoop_flatten, List.take_of_length_le h]; rfl

theorem safe_take (s : List Nat) : safe s = esc (s.take 8000) := by
  rw [safe, sendSafe, safeLoop_flatten]; rfl

theorem special_cases (c : Nat) (h : special c = true) : c = 39 ∨ c = 34 ∨ c = 60 ∨ c = 62 ∨ c = 38 := by
  simp [special] at h; omega

theorem decode_entity (c : Nat) (h : special c = true) (s : List Nat) :
    decodeFrom none (entity c ++ s) = c :: decodeFrom none s := by
  rcases special_cases c h with rfl | rfl | rfl | rfl | rfl <;> rfl

theorem meaning_esc (s : List Nat) : meaning (esc s) = s := by
  unfold meaning
  induction s with
  | nil => rfl
  | cons c s ih =>
    rw [esc_cons]
    by_cases h : special c = true
    · rw [if_pos h, decode_entity c h, ih]
    · rw [if_neg h]
      have h38 : c ≠ 38 := by intro e; subst e; exact h rfl
      rw [List.singleton_append, decodeFrom, if_neg h38, ih]

theorem mem_entity (c x : Nat) (hx : x ∈ entity c) : x ≠ 39 ∧ x ≠ 34 ∧ x ≠ 60 ∧ x ≠ 62 ∧ 0 < x ∧ x < 256 := by
  have key : ∀ e ∈ [txt "&apos;", txt "&quot;", txt "&lt;", txt "&gt;", txt "&amp;"],
      ∀ x ∈ e, x ≠ 39 ∧ x ≠ 34 ∧ x ≠ 60 ∧ x ≠ 62 ∧ 0 < x ∧ x < 256 := by decide +kernel
  unfold entity at hx
  repeat' split at hx
  all_goals exact key _ (by simp) x hx

theorem mem_esc (s : List Nat) (x : Nat) (hx : x ∈ esc s) : x ≠ 39 ∧ x ≠ 34 ∧ x ≠ 60 ∧ x ≠ 62 := by
  rw [esc, List.mem_flatMap] at hx
  obtain ⟨c, _, hx⟩ := hx
  split at hx
  · have := mem_entity c x hx; exact ⟨this.1, this.2.1, this.2.2.1, this.2.2.2.1⟩
  · rename_i h
    simp at hx; subst hx
    simp [special] at h
    omega

theorem meaning_plain (s : List Nat) (h : 38 ∉ s) : meaning s = s := by
  unfold meaning
  induction s with
  | nil => rfl
  | cons c s ih =>
    simp at h
    rw [decodeFrom, if_neg (by omega), ih h.2]

/-! ## Reading -/

theorem read_append (m : Mode) (a b : List Nat) :
    read m (a ++ b) = ((read m a).1 ++ (read (read m a).2 b).1, (read (read m a).2 b).2) := by
  induction a generalizing m with
  | nil => simp [read]
  | cons c a ih => simp [read, ih]

theorem gather_append (x : Ctx) (a b : List Tok) :
    gather x (a ++ b) = ((gather x a).1 ++ (gather (gather x a).2 b).1, (gather (gather x a).2 b).2) := by
  induction a generalizing x with
  | nil => simp [gather]
  | cons c a ih => simp [gather, ih]

theorem read_quoted (v : List Nat) (h : 34 ∉ v) (n : List Nat) (as : List (List Nat × List Nat)) (a acc : List Nat) :
    read (.quoted 34 n as a acc) v = ([], .quoted 34 n as a (acc ++ v)) := by
  induction v generalizing acc with
  | nil => simp [read]
  | cons c v ih =>
    simp at h
    have hs : (Mode.quoted 34 n as a acc).step c = ([], .quoted 34 n as a (acc ++ [c])) := by
      simp only [Mode.step]; rw [if_neg (by omega)]
    rw [read, hs]
    simp only
    rw [ih h.2]; simp

theorem read_text (v : List Nat) (h : 60 ∉ v) (acc : List Nat) : read (.text acc) v = ([], .text (acc ++ v)) := by
  induction v generalizing acc with
  | nil => simp [read]
  | cons c v ih =>
    simp at h
    have hs : (Mode.text acc).step c = ([], .text (acc ++ [c])) := by
      simp only [Mode.step]; rw [if_neg (by omega)]
    rw [read, hs]
    simp only
    rw [ih h.2]; simp

/-- A piece of a page, between tags, that submits the given fields. -/
def Shows (html : List Nat) (fs : List (List Nat × List Nat)) : Prop :=
  (read (.text []) html).2 = .text [] ∧ gather .top (read (.text []) html).1 = (fs, .top)

instance (html : List Nat) (fs : List (List Nat × List Nat)) : Decidable (Shows html fs) := by unfold Shows; exact inferInstance

theorem Shows.append {a b : List Nat} {fs gs : List (List Nat × List Nat)} (ha : Shows a fs) (hb : Shows b gs) :
    Shows (a ++ b) (fs ++ gs) := by
  obtain ⟨a1, a2⟩ := ha
  obtain ⟨b1, b2⟩ := hb
  refine ⟨?_, ?_⟩
  · rw [read_append, a1]; exact b1
  · rw [read_append, a1]
    show gather .top ((read (.text []) a).1 ++ (read (.text []) b).1) = _
    rw [gather_append, a2]
    show (fs ++ (gather .top (read (.text []) b).1).1, (gather .top (read (.text []) b).1).2) = _
    rw [b2]

theorem Shows.skip {a b : List Nat} {gs : List (List Nat × List Nat)} (ha : Shows a []) (hb : Shows b gs) : Shows (a ++ b) gs :=
  ha.append hb

theorem Shows.nil : Shows [] [] := by decide

theorem Shows.ite {a b : List Nat} {fs gs : List (List Nat × List Nat)} (c : Bool) (ha : c = true → Shows a fs) (hb : c = false → Shows b gs) :
    Shows (if c then a else b) (if c then fs else gs) := by
  cases c
  · exact hb rfl
  · exact ha rfl

/-- An `input` whose last attribute is a value in double quotes. -/
theorem Shows.input (before v : List Nat) (as : List (List Nat × List Nat)) (k : List Nat) (h34 : 34 ∉ v)
    (hr : (read (.text []) before).2 = .quoted 34 (txt "input") as (txt "value") [])
    (hg : gather .top (read (.text []) before).1 = ([], .top))
    (hn : attr "name" as = some k) (ht : attr "type" as ≠ some (txt "checkbox")) (hv : attr "value" as = none) :
    Shows (before ++ v ++ txt "\">" ++ txt "</div>") [(k, meaning v)] := by
  have e : before ++ v ++ txt "\">" ++ txt "</div>" = before ++ (v ++ (34 :: 62 :: txt "</div>")) := by
    simp; rfl
  have hend : read (.quoted 34 (txt "input") as (txt "value") ([] ++ v)) (34 :: 62 :: txt "</div>")
      = ([.tag (txt "input") (as ++ [(txt "value", v)]), .text [], .tag (txt "/div") []], .text []) := by rfl
  have hall : read (.text []) (before ++ (v ++ (34 :: 62 :: txt "</div>")))
      = ((read (.text []) before).1 ++ [.tag (txt "input") (as ++ [(txt "value", v)]), .text [], .tag (txt "/div") []], .text []) := by
    rw [read_append, hr, read_append, read_quoted v h34, hend]; simp
  rw [e]
  refine ⟨by rw [hall], ?_⟩
  rw [hall]
  show gather .top ((read (.text []) before).1 ++ _) = _
  rw [gather_append, hg]
  have hn' : attr "name" (as ++ [(txt "value", v)]) = some k := by
    rw [attr] at hn
    rw [attr, List.lookup_append, hn]; rfl
  have ht' : attr "type" (as ++ [(txt "value", v)]) = attr "type" as := by
    rw [attr, List.lookup_append, attr]
    have : [(txt "value", v)].lookup (txt "type") = none := rfl
    rw [this, Option.or_none]
  have hv' : attr "value" (as ++ [(txt "value", v)]) = some v := by
    rw [attr] at hv
    rw [attr, List.lookup_append, hv]
    rfl
  have h1 : Ctx.step .top (.tag (txt "input") (as ++ [(txt "value", v)])) = ([(k, meaning v)], .top) := by
    rw [Ctx.step, if_pos rfl, hn']
    simp only
    rw [ht', if_neg (by intro h; exact ht h.1), hv']; rfl
  show ([] ++ (gather .top [.tag (txt "input") (as ++ [(txt "value", v)]), .text [], .tag (txt "/div") []]).1,
    (gather .top [.tag (txt "input") (as ++ [(txt "value", v)]), .text [], .tag (txt "/div") []]).2) = _
  rw [gather, h1]; rfl

/-! ## Encoding -/

theorem plain_ne (c : Nat) (h : plain c = true) : c ≠ 37 ∧ c ≠ 43 ∧ c ≠ 38 ∧ 0 < c ∧ c < 256 := by
  unfold plain at h
  simp at h
  omega

theorem dec_plain (c : Nat) (s : List Nat) (h : c ≠ 37) : dec (c :: s) = (if c = 43 then 32 else c) :: dec s := by
  rw [dec]
  · intro a b t e; exact absurd e h
  · intro a e; exact absurd e h
  · intro e; exact absurd e h

theorem complete_plain (c : Nat) (s : List Nat) (h : c ≠ 37) : complete (c :: s) = complete s := by
  rw [complete]
  · intro a b t e; exact absurd e h
  · intro a e; exact absurd e h
  · intro e; exact absurd e h

theorem formEnc_ok (s : List Nat) (hs : Text s) :
    dec (formEnc s) = s ∧ complete (formEnc s) = true ∧ Text (formEnc s) ∧ 38 ∉ formEnc s := by
  induction s with
  | nil => exact ⟨rfl, rfl, by intro b hb; simp [formEnc] at hb, by simp [formEnc]⟩
  | cons c s ih =>
    obtain ⟨h1, h2, h3, h4⟩ := ih (fun x hx => hs x (by simp [hx]))
    have hc := hs c (by simp)
    by_cases hp : plain c = true
    · have he : formEnc (c :: s) = c :: formEnc s := by simp [formEnc, formChar, hp]
      obtain ⟨p1, p2, p3, p4⟩ := plain_ne c hp
      rw [he]
      refine ⟨by rw [dec_plain _ _ p1, if_neg p2, h1], by rw [complete_plain _ _ p1, h2], ?_, ?_⟩
      · intro b hb
        simp at hb
        rcases hb with rfl | hb
        · exact hc
        · exact h3 b hb
      · simp; exact ⟨by omega, h4⟩
    · by_cases h32 : c = 32
      · subst h32
        have he : formEnc (32 :: s) = 43 :: formEnc s := rfl
        rw [he]
        refine ⟨by rw [dec_plain _ _ (by decide), if_pos rfl, h1], by rw [complete_plain _ _ (by decide), h2], ?_, ?_⟩
        · intro b hb
          simp at hb
          rcases hb with rfl | hb
          · decide
          · exact h3 b hb
        · simp; exact h4
      · have he : formEnc (c :: s) = 37 :: hexDigit (c / 16) :: hexDigit (c % 16) :: formEnc s := by
          simp [formEnc, formChar, hp, h32]
        have ha := hexDigit_range (c / 16) (by omega)
        have hb := hexDigit_range (c % 16) (by omega)
        rw [he]
        refine ⟨?_, ?_, ?_, ?_⟩
        · rw [dec, h1]
          have hh := byte_back c hc.2
          rw [hex_number_exact _ (by simp)] at hh
          rw [hh]
        · rw [complete]; exact h2
        · intro b hb'
          simp at hb'
          rcases hb' with rfl | rfl | rfl | hb'
          · omega
          · omega
          · omega
          · exact h3 b hb'
        · simp; exact ⟨by omega, by omega, h4⟩

theorem length_formEnc (s : List Nat) : (formEnc s).length ≤ 3 * s.length := by
  induction s with
  | nil => simp [formEnc]
  | cons c s ih =>
    have : (formChar c).length ≤ 3 := by unfold formChar; repeat' split
                                         all_goals simp
    simp [formEnc]; omega

end Verif.Html
