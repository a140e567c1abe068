import Verif.Html.Model

/-!
# What a browser does with a form

A reader of HTML and the submission of a form, written from the HTML standard and independent of the
model of the page: tags with attributes in double or single quotes, without quotes or without a value;
the entities; `input`, `select` and `textarea`; and the encoding of the body.

Left out, because the page uses none of it: comments, numeric character references, other form elements,
`input` that is disabled.
-/

namespace Verif.Html
open Verif.Tools Verif.Mqtt

/-! ## Entities -/

/-- The named characters. -/
def named (n : List Nat) : Option Nat :=
  if n = txt "apos" then some 39
  else if n = txt "quot" then some 34
  else if n = txt "lt" then some 60
  else if n = txt "gt" then some 62
  else if n = txt "amp" then some 38
  else none

/-- Text with entities read: `pend` is the part of an entity behind its `&`. -/
def decodeFrom : Option (List Nat) → List Nat → List Nat
  | none, [] => []
  | some p, [] => 38 :: p
  | none, c :: s => if c = 38 then decodeFrom (some []) s else c :: decodeFrom none s
  | some p, c :: s =>
    if c = 59 then (match named p with | some x => x :: decodeFrom none s | none => 38 :: p ++ 59 :: decodeFrom none s)
    else if c = 38 then 38 :: p ++ decodeFrom (some []) s
    else decodeFrom (some (p ++ [c])) s

/-- The text an HTML text stands for. -/
def meaning (s : List Nat) : List Nat := decodeFrom none s

/-! ## Tags -/

/-- A tag with its attributes, or the text between tags, as it stands in the page. -/
inductive Tok
  | tag (name : List Nat) (attrs : List (List Nat × List Nat))
  | text (t : List Nat)
deriving DecidableEq, Repr

/-- Where the reader is. -/
inductive Mode
  | text (acc : List Nat)
  | tagName (acc : List Nat)
  | inTag (name : List Nat) (attrs : List (List Nat × List Nat))
  | attrName (name : List Nat) (attrs : List (List Nat × List Nat)) (acc : List Nat)
  | afterEq (name : List Nat) (attrs : List (List Nat × List Nat)) (attr : List Nat)
  | quoted (q : Nat) (name : List Nat) (attrs : List (List Nat × List Nat)) (attr acc : List Nat)
  | bare (name : List Nat) (attrs : List (List Nat × List Nat)) (attr acc : List Nat)
deriving DecidableEq, Repr

/-- Reading one character. -/
def Mode.step : Mode → Nat → List Tok × Mode
  | .text acc, c => if c = 60 then ([.text acc], .tagName []) else ([], .text (acc ++ [c]))
  | .tagName n, c =>
    if c = 62 then ([.tag n []], .text []) else if c = 32 then ([], .inTag n []) else ([], .tagName (n ++ [c]))
  | .inTag n as, c =>
    if c = 62 then ([.tag n as], .text []) else if c = 32 then ([], .inTag n as) else ([], .attrName n as [c])
  | .attrName n as a, c =>
    if c = 62 then ([.tag n (as ++ [(a, [])])], .text [])
    else if c = 32 then ([], .inTag n (as ++ [(a, [])]))
    else if c = 61 then ([], .afterEq n as a)
    else ([], .attrName n as (a ++ [c]))
  | .afterEq n as a, c =>
    if c = 34 ∨ c = 39 then ([], .quoted c n as a [])
    else if c = 62 then ([.tag n (as ++ [(a, [])])], .text [])
    else ([], .bare n as a [c])
  | .quoted q n as a v, c => if c = q then ([], .inTag n (as ++ [(a, v)])) else ([], .quoted q n as a (v ++ [c]))
  | .bare n as a v, c =>
    if c = 62 then ([.tag n (as ++ [(a, v)])], .text [])
    else if c = 32 then ([], .inTag n (as ++ [(a, v)]))
    else ([], .bare n as a (v ++ [c]))

/-- Reading a text. -/
def read : Mode → List Nat → List Tok × Mode
  | m, [] => ([], m)
  | m, c :: s => ((m.step c).1 ++ (read (m.step c).2 s).1, (read (m.step c).2 s).2)

/-! ## Forms -/

/-- Inside which form element the reader is: a `select` with its name, the value of its first option and
of the last one that is selected; a `textarea` with its name and text. -/
inductive Ctx
  | top
  | select (name : List Nat) (first last : Option (List Nat))
  | area (name : List Nat) (text : List Nat)
deriving DecidableEq, Repr

/-- The value of an attribute: the first one counts. -/
def attr (n : String) (as : List (List Nat × List Nat)) : Option (List Nat) := as.lookup (txt n)

/-- Line ends in a text area: read as LF, submitted as CR LF; a line end at the beginning is dropped. -/
def toLf : List Nat → List Nat
  | [] => []
  | 13 :: 10 :: s => 10 :: toLf s
  | c :: s => (if c = 13 then 10 else c) :: toLf s

/-- See `toLf`. -/
def toCrLf : List Nat → List Nat
  | [] => []
  | c :: s => if c = 10 then 13 :: 10 :: toCrLf s else c :: toCrLf s

/-- See `toLf`. -/
def dropFirstLf : List Nat → List Nat
  | 10 :: s => s
  | s => s

/-- What a text area with this content submits. -/
def areaValue (t : List Nat) : List Nat := toCrLf (dropFirstLf (toLf (meaning t)))

/-- One tag or text. -/
def Ctx.step : Ctx → Tok → List (List Nat × List Nat) × Ctx
  | .top, .tag n as =>
    if n = txt "input" then
      (match attr "name" as with
      | some k =>
        if attr "type" as = some (txt "checkbox") ∧ attr "checked" as = none then ([], .top)
        else ([(k, meaning ((attr "value" as).getD []))], .top)
      | none => ([], .top))
    else if n = txt "select" then
      (match attr "name" as with | some k => ([], .select k none none) | none => ([], .top))
    else if n = txt "textarea" then
      (match attr "name" as with | some k => ([], .area k []) | none => ([], .top))
    else ([], .top)
  | .select k f l, .tag n as =>
    if n = txt "/select" then
      (match l.or f with | some v => ([(k, v)], .top) | none => ([], .top))
    else if n = txt "option" then
      ([], .select k (f.or (some (meaning ((attr "value" as).getD []))))
        (if (attr "selected" as).isSome then some (meaning ((attr "value" as).getD [])) else l))
    else ([], .select k f l)
  | .area k _, .text t => ([], .area k t)
  | .area k t, .tag n _ => if n = txt "/textarea" then ([(k, areaValue t)], .top) else ([], .area k t)
  | x, .text _ => ([], x)

/-- The fields of a page, in order. -/
def gather : Ctx → List Tok → List (List Nat × List Nat) × Ctx
  | x, [] => ([], x)
  | x, t :: ts => ((x.step t).1 ++ (gather (x.step t).2 ts).1, (gather (x.step t).2 ts).2)

/-- What a page submits if nothing is changed on it. -/
def submitted (html : List Nat) : List (List Nat × List Nat) := (gather .top (read (.text []) html).1).1

/-- The characters a browser leaves as they are in the body of a form. -/
def plain (c : Nat) : Bool :=
  decide ((48 ≤ c ∧ c ≤ 57) ∨ (65 ≤ c ∧ c ≤ 90) ∨ (97 ≤ c ∧ c ≤ 122) ∨ c = 42 ∨ c = 45 ∨ c = 46 ∨ c = 95)

/-- The encoding of one character in the body of a form. -/
def formChar (c : Nat) : List Nat := if plain c then [c] else if c = 32 then [43] else [37, hexDigit (c / 16), hexDigit (c % 16)]

/-- The encoding of a text in the body of a form (`application/x-www-form-urlencoded`). -/
def formEnc : List Nat → List Nat
  | [] => []
  | c :: s => formChar c ++ formEnc s

/-- The body of a form. The keys of this page need no encoding. -/
def body (fs : List (List Nat × List Nat)) : List Nat := Web.formBody (fs.map (fun f => (f.1, formEnc f.2)))

/-- The characters that make up tags and attributes. -/
def markup (s : List Nat) : List Nat := s.filter (fun c => c == 60 || c == 62 || c == 34 || c == 39)

/-! ## Settings -/

/-- The settings as the rest of the program sees them through the getters: an empty text is the same as
none. -/
structure Settings where
  ssid : List Nat
  wpw : List Nat
  server : List Nat
  email : List Nat
  ca : List Nat
  mserver : List Nat
  muser : List Nat
  mpasswd : List Nat
  mprefix : List Nat
  url : List Nat
  sec : Nat
  wifiOn : Bool
  supla : Bool
  mqtt : Bool
  tls : Bool
  auth : Bool
  retain : Bool
  port : Nat
  qos : Nat
deriving DecidableEq, Repr

/-- The settings in a configuration. -/
def Cfg.settings (c : Cfg) : Settings :=
  { ssid := c.ssid.getD [], wpw := c.wpw.getD [], server := c.server.getD [], email := c.email.getD [], ca := c.ca.getD [],
    mserver := c.mserver.getD [], muser := c.muser.getD [], mpasswd := c.mpasswd.getD [], mprefix := c.mprefix.getD [],
    url := c.url.getD [], sec := c.sec, wifiOn := c.wifiOff == 0, supla := c.supla, mqtt := c.mqtt, tls := c.tls, auth := c.auth,
    retain := c.retain, port := c.portOf, qos := c.qosOf }

end Verif.Html
