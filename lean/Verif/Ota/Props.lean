import Verif.Ota.Model
import Verif.Rsa.Props

/-!
# C87, C88: which firmware starts, and what comes of the server's answer
-/

namespace Verif.Ota

open Verif.Sha256 (Byte Ctx)
open Verif.Rsa (Rfc.os2ip Rfc.OctetLength Rfc.valid)

/-! ## Specification -/

/-- The bytes of the pieces, in order. -/
def bytes : List Read → List Byte
  | [] => []
  | .data b :: l => b ++ bytes l
  | _ :: l => bytes l

/-- The body `b` arrived whole: pieces, possibly with pauses, and then the end. -/
def Received (l : List Read) (b : List Byte) : Prop :=
  ∃ pre closed post, l = pre ++ .nothing closed true :: post ∧ (∀ r ∈ pre, (∃ d, r = .data d) ∨ r = .nothing false false) ∧ b = bytes pre

/-- The footer of a signed file: the mark BABE2BED and the constants that go with a key of 4096 bits. -/
def footer : List Byte := [0xBA, 0xBE, 0x2B, 0xED, 0, 1, 2, 0, 16, 0, 0, 0, 0, 0, 0, 0]

/-- A signed file: a program, 512 bytes of signature, the footer; and the signature is valid for the program and the key. -/
def Signed (key file : List Byte) : Prop :=
  ∃ app sig, app ≠ [] ∧ sig.length = 512 ∧ file = app ++ sig ++ footer ∧
    ∃ k, Rfc.OctetLength (Rfc.os2ip key) k ∧ Rfc.os2ip key % 2 = 1 ∧ Rfc.valid (Rfc.os2ip key) 65537 k app (Rfc.os2ip sig)

/-! ## Reading -/

theorem fileLoop_done (w : World) : ∀ (l : List Read) (got file : List Byte), fileLoop w got l = (.done true, file) →
    ∃ b, Received l b ∧ file = got ++ b := by
  intro l
  induction l with
  | nil => intro got file h; simp [fileLoop] at h
  | cons r l ih =>
    intro got file h
    cases r with
    | error => simp [fileLoop] at h
    | data d =>
      rw [fileLoop] at h
      split at h
      · obtain ⟨b, ⟨pre, c, post, e1, e2, e3⟩, hb⟩ := ih _ _ h
        refine ⟨d ++ b, ⟨.data d :: pre, c, post, by rw [e1]; rfl, ?_, by rw [e3]; rfl⟩, by rw [hb, List.append_assoc]⟩
        intro r hr
        rcases List.mem_cons.1 hr with rfl | hr
        · exact .inl ⟨d, rfl⟩
        · exact e2 r hr
      · simp at h
    | nothing closed complete =>
      rw [fileLoop] at h
      cases closed with
      | true =>
        rw [if_pos rfl] at h
        injection h with h1 h2
        injection h1 with h1
        subst h1 h2
        exact ⟨[], ⟨[], true, l, rfl, by simp, rfl⟩, by simp⟩
      | false =>
        rw [if_neg (by decide)] at h
        cases complete with
        | true =>
          rw [if_pos rfl] at h
          injection h with h1 h2
          subst h2
          exact ⟨[], ⟨[], false, l, rfl, by simp, rfl⟩, by simp⟩
        | false =>
          rw [if_neg (by decide)] at h
          obtain ⟨b, ⟨pre, c, post, e1, e2, e3⟩, hb⟩ := ih _ _ h
          refine ⟨b, ⟨.nothing false false :: pre, c, post, by rw [e1]; rfl, ?_, by rw [e3]; rfl⟩, hb⟩
          intro r hr
          rcases List.mem_cons.1 hr with rfl | hr
          · exact .inr rfl
          · exact e2 r hr

theorem fileLoop_received (w : World) (hw : ∀ n b, w.writeOk n b = true) (l : List Read) (b : List Byte) (h : Received l b) (got : List Byte) :
    fileLoop w got l = (.done true, got ++ b) := by
  obtain ⟨pre, c, post, rfl, h2, rfl⟩ := h
  induction pre generalizing got with
  | nil => cases c <;> simp [fileLoop, bytes]
  | cons r pre ih =>
    have ih' := fun got => ih got (fun r hr => h2 r (List.mem_cons_of_mem _ hr))
    rcases h2 r (List.mem_cons_self) with ⟨d, rfl⟩ | rfl
    · rw [List.cons_append, fileLoop, if_pos (hw _ _), ih', bytes, List.append_assoc]
    · rw [List.cons_append, fileLoop, if_neg (by decide), if_neg (by decide), ih', bytes]
      intro d; exact Read.noConfusion

/-! ## Hashing -/

theorem hashLoop_some (w : World) (part : List Byte) (n : Nat) : ∀ (fuel i : Nat) (hash h : Ctx), n - i < fuel →
    hashLoop w part n hash fuel i = some h → ∃ ds, h = Sha256.updates hash ds ∧ ds.flatten = (part.drop i).take (n - i) := by
  intro fuel
  induction fuel with
  | zero => intro i hash h hf; omega
  | succ fuel ih =>
    intro i hash h hf he
    rw [hashLoop] at he
    by_cases hi : i < n
    · rw [if_pos hi] at he
      unfold partRead at he
      split at he
      · rename_i b hb
        split at hb
        · injection hb with hb
          obtain ⟨ds, h1, h2⟩ := ih (i + 4096) _ _ (by omega) he
          refine ⟨b :: ds, by rw [h1]; rfl, ?_⟩
          rw [List.flatten_cons, h2, ← hb]
          by_cases hc : i + 4096 > n
          · rw [if_pos hc, show n - (i + 4096) = 0 by omega, List.take_zero, List.append_nil]
          · rw [if_neg hc, ← List.drop_drop, show n - i = 4096 + (n - (i + 4096)) by omega, List.take_add]
        · cases hb
      · cases he
    · rw [if_neg hi] at he
      injection he with he
      exact ⟨[], by rw [he]; rfl, by rw [show n - i = 0 by omega]; rfl⟩

theorem hashLoop_isSome (w : World) (hw : ∀ i, w.readOk i = true) (part : List Byte) (n : Nat) : ∀ (fuel i : Nat) (hash : Ctx),
    ∃ h, hashLoop w part n hash fuel i = some h := by
  intro fuel
  induction fuel with
  | zero => intro i hash; exact ⟨hash, rfl⟩
  | succ fuel ih =>
    intro i hash
    rw [hashLoop]
    split
    · unfold partRead
      rw [if_pos (hw i)]
      exact ih _ _
    · exact ⟨hash, rfl⟩

theorem octets_exist (n : Nat) : ∃ k, Rfc.OctetLength n k := by
  by_cases h : n = 0
  · subst h
    exact ⟨0, by decide, fun j _ => Nat.zero_le j⟩
  · exact ⟨_, Rsa.size_octets n h⟩

/-- How the file falls apart. -/
theorem pieces (file rest : List Byte) (h : 529 ≤ file.length) :
    file = file.take (file.length - 528) ++ ((file ++ rest).drop (file.length - 528)).take 512 ++ ((file ++ rest).drop (file.length - 16)).take 16 := by
  rw [List.drop_append_of_le_length (by omega), List.drop_append_of_le_length (by omega), List.take_append_of_le_length (by rw [List.length_drop]; omega),
    List.take_append_of_le_length (by rw [List.length_drop]; omega), List.take_of_length_le (l := file.drop (file.length - 16)) (by rw [List.length_drop]; omega)]
  have e : file.drop (file.length - 16) = (file.drop (file.length - 528)).drop 512 := by rw [List.drop_drop]; congr 1; omega
  rw [e, List.append_assoc, List.take_append_drop, List.take_append_drop]

/-- The check of a file on flash, when every read of flash succeeds or not. -/
theorem verify_sound (limb : Nat) (hl : 17 ≤ limb) (block : List Byte) (hb : block.length = 64) (w : World) (ha : ∀ k, (w.alloc k).length = k)
    (file : List Byte) :
    ∃ ok, verifyRsaSignature limb block w (file ++ w.rest) file.length = some ok ∧
      (ok = true → ∃ key, w.key = some key ∧ Signed key file) ∧
      ((∀ i, w.readOk i = true) → (∃ key, w.key = some key ∧ Signed key file) → ok = true) := by
  have hfl : footer.length = 16 := rfl
  have hshort : ∀ key, Signed key file → 529 ≤ file.length := by
    rintro key ⟨app, sig, h1, h2, h3, _⟩
    rw [h3, List.length_append, List.length_append, h2, hfl]
    have := List.length_pos_iff.2 h1
    omega
  unfold verifyRsaSignature
  by_cases hsz : file.length < 16 + 512 + 1
  · rw [if_pos hsz]
    refine ⟨false, rfl, by simp, ?_⟩
    rintro _ ⟨key, _, h⟩
    have := hshort key h
    omega
  rw [if_neg hsz]
  have hp := pieces file w.rest (by omega)
  cases hh : hashLoop w (file ++ w.rest) (file.length - 16 - 512) (Sha256.init block) (file.length + 1) 0 with
  | none =>
    refine ⟨false, rfl, by simp, ?_⟩
    intro hr _
    obtain ⟨h, h'⟩ := hashLoop_isSome w hr (file ++ w.rest) (file.length - 16 - 512) (file.length + 1) 0 (Sha256.init block)
    rw [hh] at h'; cases h'
  | some hash =>
    obtain ⟨ds, rfl, hds⟩ := hashLoop_some w _ _ _ _ _ _ (by omega) hh
    rw [List.drop_zero, Nat.sub_zero, show file.length - 16 - 512 = file.length - 528 by omega, List.take_append_of_le_length (by omega)] at hds
    dsimp only
    have hsub : file.length - 16 - 512 = file.length - 528 := by omega
    rw [hsub]
    generalize hS : ((file ++ w.rest).drop (file.length - 528)).take 512 = S at *
    generalize hF : ((file ++ w.rest).drop (file.length - 16)).take 16 = F at *
    have hSl : S.length = 512 := by rw [← hS, List.length_take, List.length_drop, List.length_append]; omega
    have hAl : (file.take (file.length - 528)).length = file.length - 528 := by rw [List.length_take]; omega
    have hA0 : file.take (file.length - 528) ≠ [] := by
      intro h; rw [h] at hAl; simp at hAl; omega
    -- any way to cut the file is this one
    have huniq : ∀ app sig, sig.length = 512 → file = app ++ sig ++ footer → app = file.take (file.length - 528) ∧ sig = S ∧ footer = F := by
      intro app sig h1 h2
      have hal : app.length = file.length - 528 := by rw [h2, List.length_append, List.length_append, h1, hfl]; omega
      have e := h2.symm.trans hp
      rw [List.append_assoc, List.append_assoc] at e
      obtain ⟨e1, e2⟩ := List.append_inj e (by rw [hal, hAl])
      obtain ⟨e3, e4⟩ := List.append_inj e2 (by rw [h1, hSl])
      exact ⟨e1, e3, e4⟩
    unfold partRead
    by_cases hr1 : w.readOk (file.length - 16) = true
    · rw [if_pos hr1, hF]
      dsimp only
      by_cases hfoot : F ≠ expectedFooter
      · rw [if_pos hfoot]
        refine ⟨false, rfl, by simp, ?_⟩
        rintro _ ⟨key, _, app, sig, h1, h2, h3, _⟩
        exact absurd (huniq app sig h2 h3).2.2.symm hfoot
      · rw [if_neg hfoot]
        have hfoot' : F = footer := Classical.not_not.1 hfoot
        by_cases hr2 : w.readOk (file.length - 528) = true
        · rw [if_pos hr2, hS]
          dsimp only
          cases hk : w.key with
          | none =>
            refine ⟨false, rfl, by simp, ?_⟩
            rintro _ ⟨key, h, _⟩
            cases h
          | some key =>
            dsimp only
            obtain ⟨k, hoct⟩ := octets_exist (Rfc.os2ip key)
            obtain ⟨ok, h1, h2⟩ := Rsa.accepts_iff_valid limb hl w.alloc ha block hb key S ds k hoct
            refine ⟨ok, h1, ?_, ?_⟩
            · intro h
              obtain ⟨h3, h4⟩ := h2.1 h
              rw [hds] at h4
              exact ⟨key, rfl, _, S, hA0, hSl, by rw [← hfoot']; exact hp, k, hoct, h3, h4⟩
            · rintro _ ⟨key', hk', app, sig, g1, g2, g3, k', g4, g5, g6⟩
              have hk' := Option.some.inj hk'
              subst hk'
              obtain ⟨u1, u2, _⟩ := huniq app sig g2 g3
              rw [u1, u2, ← hds, Rsa.octets_unique _ _ _ g4 hoct] at g6
              exact h2.2 ⟨g5, g6⟩
        · rw [if_neg hr2]
          refine ⟨false, rfl, by simp, ?_⟩
          intro h; exact absurd (h _) hr2
    · rw [if_neg hr1]
      refine ⟨false, rfl, by simp, ?_⟩
      intro h; exact absurd (h _) hr1

/-! ## C87 -/

/-- Only what arrived whole and is signed gets installed. -/
theorem install_sound (limb : Nat) (hl : 17 ≤ limb) (block : List Byte) (hb : block.length = 64) (w : World) (ha : ∀ k, (w.alloc k).length = k)
    (h : install limb block w = .switched) : ∃ key file, w.key = some key ∧ Received w.fileReads file ∧ Signed key file := by
  unfold install at h
  split at h
  · cases h
  split at h
  · cases h
  split at h
  · cases h
  · cases h
  · rename_i complete file hf
    split at h
    · cases h
    rename_i hc
    have hc' : complete = true := Classical.not_not.1 hc
    subst hc'
    split at h
    · cases h
    obtain ⟨b, hrec, hb'⟩ := fileLoop_done w _ _ _ hf
    rw [List.nil_append] at hb'
    subst hb'
    obtain ⟨ok, e, h1, _⟩ := verify_sound limb hl block hb w ha _
    rw [e] at h
    cases ok with
    | false => cases h
    | true =>
      obtain ⟨key, hk, hs⟩ := h1 rfl
      exact ⟨key, _, hk, hrec, hs⟩

/-- **C87.** Whatever the server sends and whatever goes wrong, new firmware is started only if the device has a public key, the
file arrived whole, and it is a program followed by the signature of that program, valid for the key, and the footer. -/
theorem only_signed_starts (limb : Nat) (hl : 17 ≤ limb) (block : List Byte) (hb : block.length = 64) (f : Fields) (w : World)
    (ha : ∀ k, (w.alloc k).length = k) (h : iterate limb block f w = .switched) :
    ∃ key file, w.key = some key ∧ Received w.fileReads file ∧ Signed key file := by
  unfold iterate at h
  split at h
  · cases h
  split at h
  · cases h
  split at h
  · cases h
  split at h
  · cases h
  · cases h
  split at h
  · cases h
  split at h
  · cases h
  split at h
  · cases h
  · cases h
  · cases h
  · unfold fetchFile at h
    split at h
    · cases h
    split at h
    · cases h
    split at h
    · cases h
    exact install_sound limb hl block hb w ha h

/-- **C87, the other way.** If flash and network do their part, a signed file that arrives whole is installed. -/
theorem signed_installs (limb : Nat) (hl : 17 ≤ limb) (block : List Byte) (hb : block.length = 64) (w : World)
    (ha : ∀ k, (w.alloc k).length = k) (hok : w.open2Ok = true ∧ w.headersOk = true ∧ w.status = 200 ∧ w.partitionOk = true ∧ w.beginOk = true ∧
      w.endOk = true ∧ w.setBootOk = true) (hw : ∀ n b, w.writeOk n b = true) (hr : ∀ i, w.readOk i = true)
    (key file : List Byte) (hk : w.key = some key) (hrec : Received w.fileReads file) (hs : Signed key file) :
    fetchFile limb block w = .switched := by
  obtain ⟨h1, h2, h3, h4, h5, h6, h7⟩ := hok
  unfold fetchFile install
  rw [if_neg (by simp [h1]), if_neg (by simp [h2]), if_neg (by simp [h3]), if_neg (by simp [h4]), if_neg (by simp [h5]),
    fileLoop_received w hw _ file hrec, List.nil_append]
  dsimp only
  rw [if_neg (by simp), if_neg (by simp [h6])]
  obtain ⟨ok, e, _, g⟩ := verify_sound limb hl block hb w ha file
  rw [e, g hr ⟨key, hk, hs⟩]
  dsimp only
  rw [if_pos h7]

/-- A device whose server answers at once, and the file. -/
def exampleWorld (file : List Read) : World :=
  { clientOk := true, openOk := true, answerReads := [.data [0x7b, 0x7d], .nothing false true], parse := fun _ => .update, open2Ok := true,
    headersOk := true, status := 200, partitionOk := true, beginOk := true, fileReads := file, writeOk := fun _ _ => true, endOk := true,
    readOk := fun _ => true, rest := [0xff, 0xff], setBootOk := true, key := some (Rsa.Rfc.i2osp 512 Rsa.exampleKey),
    alloc := fun k => List.replicate k 0 }

/-- The example: a device asking for an update. -/
def exampleFields : Fields :=
  { manufacturer := txt "4", product := txt "17", name := txt "ROW", platform := txt "1", version := txt "1.0", guidHash := List.replicate 64 48,
    emailHash := none, beta := false }

/-- A program "abc" with its signature, in three pieces with a pause, is installed; with one bit changed it is not. -/
example : iterate 32 (List.replicate 64 0) exampleFields (exampleWorld [.data [0x61, 0x62], .nothing false false,
    .data (0x63 :: Rsa.Rfc.i2osp 512 Rsa.exampleSig), .data footer, .nothing true true]) = .switched := by decide +kernel
example : iterate 32 (List.replicate 64 0) exampleFields (exampleWorld [.data [0x61, 0x62], .nothing false false,
    .data (0x62 :: Rsa.Rfc.i2osp 512 Rsa.exampleSig), .data footer, .nothing true true]) = .failed false := by decide +kernel

/-! ## C88: the question and the answer -/

/-- The query, in full. -/
def queryText (f : Fields) : List Nat :=
  txt "manufacturerId=" ++ f.manufacturer ++ txt "&productId=" ++ f.product ++ txt "&productName=" ++ f.name ++ txt "&platform=" ++ f.platform ++
    txt "&version=" ++ f.version ++ txt "&guidHash=" ++ f.guidHash ++
    (match f.emailHash with | some h => txt "&userEmailHash=" ++ h | none => []) ++ (if f.beta then txt "&beta=true" else [])

theorem append_inv (q : Option (List Nat)) (s t : List Nat) (h : append q s = some t) : ∃ q', q = some q' ∧ t = q' ++ s := by
  cases q with
  | none => cases h
  | some q =>
    simp only [append, Option.bind_some] at h
    split at h
    · cases h
    · split at h
      · exact ⟨q, rfl, (Option.some.inj h).symm⟩
      · cases h

theorem appendHash_inv (q : Option (List Nat)) (s t : List Nat) (h : appendHash q s = some t) : ∃ q', q = some q' ∧ t = q' ++ s := by
  cases q with
  | none => cases h
  | some q =>
    simp only [appendHash, Option.bind_some] at h
    split at h
    · exact ⟨q, rfl, (Option.some.inj h).symm⟩
    · cases h

/-- **C88.** A query that is sent is complete. -/
theorem query_exact (f : Fields) (t : List Nat) (h : query f = some t) : t = queryText f := by
  unfold query at h
  dsimp only at h
  have key : ∀ q t, append (append (append (append (append (append (append (append (append (append (append (some []) (txt "manufacturerId="))
      f.manufacturer) (txt "&productId=")) f.product) (txt "&productName=")) f.name) (txt "&platform=")) f.platform) (txt "&version="))
      f.version) (txt "&guidHash=") = q → appendHash q f.guidHash = some t → t = txt "manufacturerId=" ++ f.manufacturer ++ txt "&productId=" ++
      f.product ++ txt "&productName=" ++ f.name ++ txt "&platform=" ++ f.platform ++ txt "&version=" ++ f.version ++ txt "&guidHash=" ++ f.guidHash := by
    intro q t hq h
    obtain ⟨q0, e0, rfl⟩ := appendHash_inv _ _ _ h
    subst hq
    obtain ⟨q1, e1, rfl⟩ := append_inv _ _ _ e0
    obtain ⟨q2, e2, rfl⟩ := append_inv _ _ _ e1
    obtain ⟨q3, e3, rfl⟩ := append_inv _ _ _ e2
    obtain ⟨q4, e4, rfl⟩ := append_inv _ _ _ e3
    obtain ⟨q5, e5, rfl⟩ := append_inv _ _ _ e4
    obtain ⟨q6, e6, rfl⟩ := append_inv _ _ _ e5
    obtain ⟨q7, e7, rfl⟩ := append_inv _ _ _ e6
    obtain ⟨q8, e8, rfl⟩ := append_inv _ _ _ e7
    obtain ⟨q9, e9, rfl⟩ := append_inv _ _ _ e8
    obtain ⟨q10, e10, rfl⟩ := append_inv _ _ _ e9
    obtain ⟨q11, e11, rfl⟩ := append_inv _ _ _ e10
    have e11 := Option.some.inj e11
    subst e11
    rfl
  unfold queryText
  generalize hq : append (append (append (append (append (append (append (append (append (append (append (some []) (txt "manufacturerId="))
      f.manufacturer) (txt "&productId=")) f.product) (txt "&productName=")) f.name) (txt "&platform=")) f.platform) (txt "&version="))
      f.version) (txt "&guidHash=") = q at h
  generalize hP : txt "manufacturerId=" ++ f.manufacturer ++ txt "&productId=" ++ f.product ++ txt "&productName=" ++ f.name ++ txt "&platform=" ++
    f.platform ++ txt "&version=" ++ f.version ++ txt "&guidHash=" ++ f.guidHash = P
  have key' : ∀ t, appendHash q f.guidHash = some t → t = P := fun t h => (key q t hq h).trans hP
  clear key hq hP
  rcases Bool.eq_false_or_eq_true f.beta with hb | hb
  · rw [if_pos hb] at h
    rw [if_pos hb]
    obtain ⟨q', e, rfl⟩ := append_inv _ _ _ h
    cases he : f.emailHash with
    | none =>
      rw [he] at e
      dsimp only at e ⊢
      rw [key' q' e, List.append_nil]
    | some eh =>
      rw [he] at e
      dsimp only at e ⊢
      obtain ⟨q2, e2, rfl⟩ := appendHash_inv _ _ _ e
      obtain ⟨q3, e3, rfl⟩ := append_inv _ _ _ e2
      rw [key' q3 e3, List.append_assoc P]
  · rw [if_neg (by rw [hb]; decide)] at h
    rw [if_neg (by rw [hb]; decide), List.append_nil]
    cases he : f.emailHash with
    | none =>
      rw [he] at h
      dsimp only at h ⊢
      rw [key' t h, List.append_nil]
    | some eh =>
      rw [he] at h
      dsimp only at h ⊢
      obtain ⟨q2, e2, rfl⟩ := appendHash_inv _ _ _ h
      obtain ⟨q3, e3, rfl⟩ := append_inv _ _ _ e2
      rw [key' q3 e3, List.append_assoc P]

example : query exampleFields = some (queryText exampleFields) := by decide +kernel

/-- A short enough query can always be asked. -/
def QueryMade : Prop :=
  ∀ f : Fields, f.guidHash.length = 64 → (∀ h, f.emailHash = some h → h.length = 64) → (queryText f).length < 511 → query f = some (queryText f)

/-- A device without a name never gets to ask. -/
theorem query_made_violation : ¬ QueryMade := by
  intro h
  have := h { exampleFields with name := [] } (by decide +kernel) (by intro h hh; cases hh) (by decide +kernel)
  revert this
  decide +kernel

theorem append_some (q s : List Nat) (h0 : s ≠ []) (h : q.length + s.length < 511) : append (some q) s = some (q ++ s) := by
  simp only [append, Option.bind_some]
  rw [if_neg (by simpa using h0), if_pos (by omega)]

theorem appendHash_some (q s : List Nat) (h : q.length < 447) : appendHash (some q) s = some (q ++ s) := by
  simp only [appendHash, Option.bind_some]
  rw [if_pos (by omega)]

theorem query_made_partial (f : Fields) (h0 : f.manufacturer ≠ [] ∧ f.product ≠ [] ∧ f.name ≠ [] ∧ f.platform ≠ [] ∧ f.version ≠ [])
    (hg : f.guidHash.length = 64) (he : ∀ h, f.emailHash = some h → h.length = 64) (hl : (queryText f).length < 511) :
    query f = some (queryText f) := by
  obtain ⟨h1, h2, h3, h4, h5⟩ := h0
  unfold query queryText
  unfold queryText at hl
  have l1 : (txt "manufacturerId=").length = 15 := by decide
  have l2 : (txt "&productId=").length = 11 := by decide
  have l3 : (txt "&productName=").length = 13 := by decide
  have l4 : (txt "&platform=").length = 10 := by decide
  have l5 : (txt "&version=").length = 9 := by decide
  have l6 : (txt "&guidHash=").length = 10 := by decide
  have l7 : (txt "&userEmailHash=").length = 15 := by decide
  have l8 : (txt "&beta=true").length = 10 := by decide
  simp only [List.length_append, l1, l2, l3, l4, l5, l6, hg] at hl
  dsimp only
  rw [append_some [] _ (by decide) (by simp only [List.length_nil, l1]; omega),
    append_some _ f.manufacturer h1 (by simp only [List.length_append, List.length_nil, l1]; omega),
    append_some _ _ (by decide) (by simp only [List.length_append, List.length_nil, l1, l2]; omega),
    append_some _ f.product h2 (by simp only [List.length_append, List.length_nil, l1, l2]; omega),
    append_some _ _ (by decide) (by simp only [List.length_append, List.length_nil, l1, l2, l3]; omega),
    append_some _ f.name h3 (by simp only [List.length_append, List.length_nil, l1, l2, l3]; omega),
    append_some _ _ (by decide) (by simp only [List.length_append, List.length_nil, l1, l2, l3, l4]; omega),
    append_some _ f.platform h4 (by simp only [List.length_append, List.length_nil, l1, l2, l3, l4]; omega),
    append_some _ _ (by decide) (by simp only [List.length_append, List.length_nil, l1, l2, l3, l4, l5]; omega),
    append_some _ f.version h5 (by simp only [List.length_append, List.length_nil, l1, l2, l3, l4, l5]; omega),
    append_some _ _ (by decide) (by simp only [List.length_append, List.length_nil, l1, l2, l3, l4, l5, l6]; omega),
    appendHash_some _ _ (by simp only [List.length_append, List.length_nil, l1, l2, l3, l4, l5, l6]; omega), List.nil_append]
  generalize hP : txt "manufacturerId=" ++ f.manufacturer ++ txt "&productId=" ++ f.product ++ txt "&productName=" ++ f.name ++ txt "&platform=" ++
    f.platform ++ txt "&version=" ++ f.version ++ txt "&guidHash=" ++ f.guidHash = P
  have hPl : P.length = 15 + f.manufacturer.length + 11 + f.product.length + 13 + f.name.length + 10 + f.platform.length + 9 + f.version.length + 10 + 64 := by
    rw [← hP]; simp only [List.length_append, l1, l2, l3, l4, l5, l6, hg]
  rcases Bool.eq_false_or_eq_true f.beta with hb | hb
  · rw [if_pos hb] at hl ⊢
    rw [if_pos hb]
    rw [l8] at hl
    cases hem : f.emailHash with
    | none =>
      rw [hem] at hl
      dsimp only [List.length_nil] at hl ⊢
      rw [append_some P _ (by decide) (by rw [l8]; omega), List.append_nil]
    | some eh =>
      rw [hem] at hl
      have := he eh hem
      dsimp only at hl ⊢
      rw [List.length_append, l7] at hl
      rw [append_some P _ (by decide) (by rw [l7]; omega), appendHash_some _ _ (by rw [List.length_append, l7]; omega),
        append_some _ _ (by decide) (by rw [List.length_append, List.length_append, l7, l8]; omega)]
      simp only [List.append_assoc]
  · rw [if_neg (by simp [hb])] at hl ⊢
    rw [if_neg (by simp [hb])]
    cases hem : f.emailHash with
    | none =>
      dsimp only
      rw [List.append_nil, List.append_nil]
    | some eh =>
      rw [hem] at hl
      have := he eh hem
      dsimp only at hl ⊢
      rw [List.length_append, l7] at hl
      rw [append_some P _ (by decide) (by rw [l7]; omega), appendHash_some _ _ (by rw [List.length_append, l7]; omega)]
      simp only [List.append_assoc, List.append_nil]

/-- If the answer of the server, which arrived whole, says there is an update, the file is fetched. -/
def AnswerObeyed : Prop :=
  ∀ (limb : Nat) (block : List Byte) (f : Fields) (w : World) (text : List Byte), query f ≠ none → w.clientOk = true → w.openOk = true →
    Received w.answerReads text → w.parse text = .update → iterate limb block f w = fetchFile limb block w

/-- An answer in two pieces is read as its second piece alone. -/
theorem answer_obeyed_violation : ¬ AnswerObeyed := by
  intro h
  have := h 32 (List.replicate 64 0) exampleFields
    { exampleWorld [.data ([0x61, 0x62, 0x63] ++ Rsa.Rfc.i2osp 512 Rsa.exampleSig ++ footer), .nothing true true] with
      answerReads := [.data [0x7b], .data [0x7d], .nothing false true], parse := fun t => if t = [0x7b, 0x7d] then .update else .unreadable }
    [0x7b, 0x7d] (by decide +kernel) rfl rfl
    ⟨[.data [0x7b], .data [0x7d]], false, [], rfl, by intro r hr; simp at hr; rcases hr with rfl | rfl <;> exact .inl ⟨_, rfl⟩, rfl⟩ (by decide +kernel)
  revert this
  decide +kernel

/-- Nothing at all in the answer, or no client: the code goes on regardless. -/
def NeverUndefined : Prop :=
  ∀ (limb : Nat) (block : List Byte) (f : Fields) (w : World), 17 ≤ limb → block.length = 64 → (∀ k, (w.alloc k).length = k) →
    iterate limb block f w ≠ .undefined

theorem never_undefined_violation : ¬ NeverUndefined := by
  intro h
  have := h 32 (List.replicate 64 0) exampleFields { exampleWorld [] with answerReads := [.nothing true true] } (by decide) (by decide)
    (by intro k; exact List.length_replicate)
  revert this
  decide +kernel

/-- And the client is used before it is compared with NULL. -/
theorem no_client_violation : ¬ NeverUndefined := by
  intro h
  have := h 32 (List.replicate 64 0) exampleFields { exampleWorld [] with clientOk := false } (by decide) (by decide)
    (by intro k; exact List.length_replicate)
  revert this
  decide +kernel

/-- Whoever gives up has freed everything. -/
def NothingLeaks : Prop := ∀ (limb : Nat) (block : List Byte) (f : Fields) (w : World), iterate limb block f w ≠ .failed true

/-- The parsed answer is not freed when there is no update. -/
theorem nothing_leaks_violation : ¬ NothingLeaks := by
  intro h
  have := h 32 [] exampleFields { exampleWorld [] with parse := fun _ => .noUpdate }
  revert this
  decide +kernel

/-- An answer in one piece, possibly after pauses. -/
theorem answerLoop_one (pre1 pre2 post : List Read) (d : List Byte) (c : Bool) (h1 : ∀ r ∈ pre1, r = .nothing false false)
    (h2 : ∀ r ∈ pre2, r = .nothing false false) (b : Option (List Byte)) :
    answerLoop b (pre1 ++ .data d :: (pre2 ++ .nothing c true :: post)) = (.done true, some d) := by
  induction pre1 with
  | cons r pre ih =>
    have := h1 r List.mem_cons_self
    subst this
    rw [List.cons_append, answerLoop, if_neg (by decide), if_neg (by decide)]
    exact ih (fun r hr => h1 r (List.mem_cons_of_mem _ hr))
  | nil =>
    rw [List.nil_append, answerLoop]
    induction pre2 with
    | nil => cases c <;> simp [answerLoop]
    | cons r pre ih =>
      have := h2 r List.mem_cons_self
      subst this
      rw [List.cons_append, answerLoop, if_neg (by decide), if_neg (by decide)]
      exact ih (fun r hr => h2 r (List.mem_cons_of_mem _ hr))

/-- **C88, what holds.** An answer in one piece decides: the file is fetched exactly when it says there is an update. -/
theorem answer_obeyed_partial (limb : Nat) (block : List Byte) (f : Fields) (w : World) (pre1 pre2 post : List Read) (d : List Byte) (c : Bool)
    (hq : query f ≠ none) (hc : w.clientOk = true) (ho : w.openOk = true) (h1 : ∀ r ∈ pre1, r = .nothing false false)
    (h2 : ∀ r ∈ pre2, r = .nothing false false) (hr : w.answerReads = pre1 ++ .data d :: (pre2 ++ .nothing c true :: post)) :
    (w.parse d = .update → iterate limb block f w = fetchFile limb block w) ∧
    (w.parse d ≠ .update → ∃ leaked, iterate limb block f w = .failed leaked) := by
  unfold iterate
  cases hf : query f with
  | none => exact absurd hf hq
  | some t =>
    dsimp only
    rw [if_neg (by simp [hc]), if_neg (by simp [ho]), hr, answerLoop_one pre1 pre2 post d c h1 h2]
    dsimp only
    rw [if_neg (by simp)]
    constructor
    · intro h; rw [h]
    · intro h
      cases hp : w.parse d with
      | update => exact absurd hp h
      | unreadable => exact ⟨false, rfl⟩
      | noUpdate => exact ⟨true, rfl⟩
      | noAddress => exact ⟨true, rfl⟩

/-- With a client and an answer that is not empty nothing undefined happens. -/
theorem never_undefined_partial (limb : Nat) (hl : 17 ≤ limb) (block : List Byte) (hb : block.length = 64) (f : Fields) (w : World)
    (ha : ∀ k, (w.alloc k).length = k) (hc : w.clientOk = true) (d : List Byte) (l : List Read) (hr : w.answerReads = .data d :: l) :
    iterate limb block f w ≠ .undefined := by
  have hbuf : ∀ (l : List Read) (b : List Byte), ∃ b', (answerLoop (some b) l).2 = some b' := by
    intro l
    induction l with
    | nil => intro b; exact ⟨b, rfl⟩
    | cons r l ih =>
      intro b
      cases r with
      | error => exact ⟨b, rfl⟩
      | data d => exact ih d
      | nothing c k =>
        rw [answerLoop]
        split
        · exact ⟨b, rfl⟩
        · split
          · exact ⟨b, rfl⟩
          · exact ih b
  obtain ⟨b', hb'⟩ := hbuf l d
  have hinst : install limb block w ≠ .undefined := by
    unfold install
    split
    · simp
    split
    · simp
    split
    · simp
    · simp
    split
    · simp
    split
    · simp
    rename_i file _ _ _
    obtain ⟨ok, e, _⟩ := verify_sound limb hl block hb w ha file
    rw [e]
    cases ok with
    | false => simp
    | true => dsimp only; split <;> simp
  unfold iterate
  split
  · simp
  rw [if_neg (by simp [hc])]
  split
  · simp
  rw [hr, answerLoop]
  split
  · simp
  · simp
  · rename_i complete buffer he
    split
    · simp
    rw [he] at hb'
    dsimp only at hb'
    subst hb'
    dsimp only
    split
    · simp
    · simp
    · simp
    · unfold fetchFile
      split
      · simp
      split
      · simp
      split
      · simp
      exact hinst

end Verif.Ota
