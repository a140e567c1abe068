/-
Answers of photovoltaic inverters: the Fronius Solar API (one member of a JSON object per line) and
the lines of the SolarEdge monitoring API, written without reference to the code that reads them.
-/
namespace Verif.Pv

abbrev Text := List Char

/-- White space (isspace in the C locale). -/
def blank (c : Char) : Bool :=
  c = ' ' ∨ c = '\t' ∨ c = '\n' ∨ c = '\x0b' ∨ c = '\x0c' ∨ c = '\r'

/-- A word: not empty, no white space, no quotation mark, no NUL. -/
def word (w : Text) : Prop := w ≠ [] ∧ ∀ c ∈ w, blank c = false ∧ c ≠ '"' ∧ c ≠ '\x00'

/-- What is measured. -/
inductive Quantity
  | energy | freq | voltage | current | power
deriving DecidableEq, Repr

/-- The name of a quantity in the answer of a Fronius inverter. -/
def Quantity.name : Quantity → Text
  | .energy => "TOTAL_ENERGY".toList
  | .freq => "FAC".toList
  | .voltage => "UAC".toList
  | .current => "IAC".toList
  | .power => "PAC".toList

/-- A line of the answer, without the line feed. -/
inductive Line
  /-- A line without a quotation mark: a header of HTTP, a bracket, nothing. -/
  | plain (t : Text)
  /-- `"key"...` -/
  | member (indent key rest : Text)
deriving Repr

def Line.text : Line → Text
  | .plain t => t
  | .member indent key rest => indent ++ '"' :: (key ++ '"' :: rest)

/-- A text without line feed and quotation mark. -/
def unquoted (t : Text) : Prop := ∀ c ∈ t, c ≠ '\n' ∧ c ≠ '"'

/-- A line that names no quantity and gives no value. -/
def Line.other : Line → Prop
  | .plain t => unquoted t
  | .member indent key rest =>
    unquoted indent ∧ word key ∧ key.length ≤ 77 ∧ (∀ c ∈ rest, c ≠ '\n') ∧
      (∀ q : Quantity, ¬ q.name <+: key) ∧ ¬ "Value".toList <+: key

/-- One measured quantity: a line that names it, and the line `"Value" : v`, with other lines between
and after. -/
structure Block where
  indent : Text
  key : Text
  rest : Text
  mid : List Line
  indent' : Text
  value : Text
  tail : Text
  after : List Line
deriving Repr

def Block.lines (b : Block) : List Text :=
  (Line.member b.indent b.key b.rest).text :: (b.mid.map Line.text
    ++ (b.indent' ++ '"' :: ("Value".toList ++ '"' :: (" : ".toList ++ b.value ++ b.tail)))
      :: b.after.map Line.text)

/-- The key is that of a quantity or not mistakable for one; the value is a word followed by white
space or the end of the line. -/
def Block.ok (b : Block) : Prop :=
  unquoted b.indent ∧ word b.key ∧ b.key.length ≤ 77 ∧ (∀ c ∈ b.rest, c ≠ '\n') ∧
    ((∃ q : Quantity, b.key = q.name) ∨
      ((∀ q : Quantity, ¬ q.name <+: b.key) ∧ ¬ "Value".toList <+: b.key)) ∧
    (∀ l ∈ b.mid, l.other) ∧ unquoted b.indent' ∧ word b.value ∧ b.value.length ≤ 60 ∧
    (∀ c ∈ b.tail, c ≠ '\n') ∧ (b.tail = [] ∨ ∃ c t, b.tail = c :: t ∧ blank c = true) ∧
    (∀ l ∈ b.after, l.other)

/-- A complete answer. -/
structure Answer where
  head : List Line
  blocks : List Block
deriving Repr

def Answer.ok (a : Answer) : Prop := (∀ l ∈ a.head, l.other) ∧ ∀ b ∈ a.blocks, b.ok

def Answer.lines (a : Answer) : List Text :=
  a.head.map Line.text ++ a.blocks.flatMap Block.lines

/-- The lines with their line feeds. -/
def stream : List Text → Text
  | [] => []
  | l :: ls => l ++ '\n' :: stream ls

/-- What the answer says about a quantity: the value of the last block with its name. -/
def Answer.says (a : Answer) (q : Quantity) : Option Text :=
  (a.blocks.reverse.find? fun b => b.key = q.name).map Block.value

/-- A line of comma separated values. -/
def commas : List Text → Text
  | [] => []
  | [f] => f
  | f :: fs => f ++ ',' :: commas fs

/-- A field: no comma, no line feed, no NUL. -/
def field (f : Text) : Prop := ∀ c ∈ f, c ≠ ',' ∧ c ≠ '\n' ∧ c ≠ '\x00'

/-- The columns of SolarEdge that are shown: temperature, energy, and per phase current, voltage,
frequency (of the first phase), apparent, active and reactive power; the numbers are those of the
header line. -/
def shown : List Nat := [2, 7, 11, 12, 13, 14, 15, 16, 19, 20, 22, 23, 24, 27, 28, 30, 31, 32]

end Verif.Pv
