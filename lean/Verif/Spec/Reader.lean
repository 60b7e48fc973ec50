import Verif.Spec.Text

/-!
# Character-driven readers for JSON and XML documents

Each reader is a deterministic pushdown machine that consumes one character at a time and emits events, as
a streaming (SAX style) parser does. A document is well-formed when the machine ends in its final state.
-/

namespace Fileid.Spec

/-- Runs a machine over a text, collecting the events; `none` as soon as a character is rejected. -/
def run {σ ε : Type} (step : σ → UInt8 → Option (σ × List ε)) : σ → Bytes → Option (σ × List ε)
  | s, [] => some (s, [])
  | s, c :: cs =>
    match step s c with
    | none => none
    | some (s', ev) =>
      match run step s' cs with
      | none => none
      | some (s'', ev') => some (s'', ev ++ ev')

/-! ## JSON (RFC 8259) -/

/-- `bare` is a number or one of the literals true, false, null, given by its text. -/
inductive JEvent
  | startObj | endObj | startArr | endArr
  | key (chars : List Nat)
  | str (chars : List Nat)
  | bare (text : Bytes)
  deriving DecidableEq, Repr

/-- Where the reader is. `inStr isKey raw esc` is inside a string literal whose raw text so far is `raw`;
`esc` tells whether the last character was an unescaped backslash. `inBare raw` is inside a number or a
literal. -/
inductive JMode
  | value | valueOrEnd | keyOrEnd | key | colon | after | fin
  | inStr (isKey : Bool) (raw : Bytes) (esc : Bool)
  | inBare (raw : Bytes)
  deriving DecidableEq, Repr

def isDigit (c : UInt8) : Bool := 48 ≤ c && c ≤ 57

/-- `[ e [ plus / minus ] 1*DIGIT ]`, the exponent of a number, or nothing. -/
def jsonExp : Bytes → Bool
  | [] => true
  | c :: cs =>
    (c == 101 || c == 69) &&
      (match cs with
      | [] => false
      | s :: ds => if s == 43 || s == 45 then !ds.isEmpty && ds.all isDigit else (s :: ds).all isDigit)

/-- `[ . 1*DIGIT ]`, the fraction of a number, and what follows it. -/
def jsonFrac : Bytes → Bool
  | 46 :: d :: cs => isDigit d && jsonExp (cs.dropWhile isDigit)
  | s => jsonExp s

/-- A number: an optional minus sign, an integer without leading zeros, fraction and exponent. -/
def jsonNumber (s : Bytes) : Bool :=
  match (if s.head? = some 45 then s.tail else s) with
  | [] => false
  | 48 :: cs => jsonFrac cs
  | c :: cs => isDigit c && jsonFrac (cs.dropWhile isDigit)

/-- A number or a literal. -/
def jsonBare (s : Bytes) : Bool := s == b!"true" || s == b!"false" || s == b!"null" || jsonNumber s

/-- The reader's state: mode and open containers, innermost first (`true`: object, `false`: array). -/
abbrev JState := JMode × List Bool

def isWs (c : UInt8) : Bool := c == 32 || c == 9 || c == 10 || c == 13

/-- Mode after a complete value, given the open containers. -/
def afterValue (stack : List Bool) : JMode := if stack.isEmpty then .fin else .after

/-- Start of a value. -/
def startValue (stack : List Bool) (c : UInt8) : Option (JState × List JEvent) :=
  if c = 123 then some ((.keyOrEnd, true :: stack), [.startObj])
  else if c = 91 then some ((.valueOrEnd, false :: stack), [.startArr])
  else if c = 34 then some ((.inStr false [] false, stack), [])
  else if isDigit c || c == 45 || c == 116 || c == 102 || c == 110 then some ((.inBare [c], stack), [])
  else none

/-- `]` or `}`. -/
def endContainer (stack : List Bool) (c : UInt8) : Option (JState × List JEvent) :=
  match stack with
  | true :: rest => if c = 125 then some ((afterValue rest, rest), [.endObj]) else none
  | false :: rest => if c = 93 then some ((afterValue rest, rest), [.endArr]) else none
  | [] => none

/-- A character outside of strings, numbers and literals. -/
def jsonStepOut (mode : JMode) (stack : List Bool) (c : UInt8) : Option (JState × List JEvent) :=
  if isWs c then some ((mode, stack), [])
  else match mode with
    | .value => startValue stack c
    | .valueOrEnd => if c = 93 then endContainer stack c else startValue stack c
    | .keyOrEnd =>
      if c = 34 then some ((.inStr true [] false, stack), []) else endContainer stack c
    | .key => if c = 34 then some ((.inStr true [] false, stack), []) else none
    | .colon => if c = 58 then some ((.value, stack), []) else none
    | .after =>
      if c = 44 then
        match stack with
        | true :: _ => some ((.key, stack), [])
        | false :: _ => some ((.value, stack), [])
        | [] => none
      else endContainer stack c
    | _ => none

/-- What ends a number or a literal. -/
def isDelim (c : UInt8) : Bool := isWs c || c == 44 || c == 93 || c == 125

def jsonStep (s : JState) (c : UInt8) : Option (JState × List JEvent) :=
  match s with
  | (.inStr isKey raw true, stack) => some ((.inStr isKey (raw ++ [c]) false, stack), [])
  | (.inStr isKey raw false, stack) =>
    if c = 34 then
      match jsonBody raw with
      | none => none
      | some cs =>
        if isKey then some ((.colon, stack), [.key cs]) else some ((afterValue stack, stack), [.str cs])
    else some ((.inStr isKey (raw ++ [c]) (c == 92), stack), [])
  | (.inBare raw, stack) =>
    if isDelim c then
      if jsonBare raw then
        match jsonStepOut (afterValue stack) stack c with
        | none => none
        | some (s', ev) => some (s', .bare raw :: ev)
      else none
    else some ((.inBare (raw ++ [c]), stack), [])
  | (mode, stack) => jsonStepOut mode stack c

/-- The events of a complete JSON document; `none` if the text is not one. -/
def jsonDocument (s : Bytes) : Option (List JEvent) :=
  match run jsonStep (.value, []) s with
  | some ((.fin, []), ev) => some ev
  | some ((.inBare raw, []), ev) => if jsonBare raw then some (ev ++ [.bare raw]) else none
  | _ => none

/-- A JSON value; strings are given by their UTF-16 units, numbers and literals by their text. -/
inductive JVal
  | str (chars : List Nat)
  | bare (text : Bytes)
  | arr (items : List JVal)
  | obj (members : List (Bytes × JVal))

mutual
/-- The events of a value. -/
def JVal.events : JVal → List JEvent
  | .str cs => [.str cs]
  | .bare t => [.bare t]
  | .arr vs => .startArr :: JVal.itemEvents vs ++ [.endArr]
  | .obj ms => .startObj :: JVal.memberEvents ms ++ [.endObj]
def JVal.itemEvents : List JVal → List JEvent
  | [] => []
  | v :: vs => v.events ++ JVal.itemEvents vs
def JVal.memberEvents : List (Bytes × JVal) → List JEvent
  | [] => []
  | (k, v) :: ms => .key (k.map UInt8.toNat) :: v.events ++ JVal.memberEvents ms
end

/-- A string given by ASCII text. -/
def JVal.text (s : Bytes) : JVal := .str (s.map UInt8.toNat)
/-- A natural number. -/
def JVal.nat (n : Nat) : JVal := .bare (dec n)

/-! ## XML (elements without attributes, decimal character references, CDATA sections) -/

inductive XEvent
  | opened (name : Bytes)
  | closed (name : Bytes)
  | char (c : Nat)
  deriving DecidableEq, Repr

/-- Where the reader is. `lt`: after `<`; `bang k`: after `<!` and `k` characters of `[CDATA[`;
`cdata k`: in a CDATA section, after `k` closing brackets not yet reported; `amp`: after `&`. -/
inductive XMode
  | text | lt | openName (n : Bytes) | closeName (n : Bytes) | bang (k : Nat) | cdata (k : Nat)
  | amp | ref (ds : Bytes) | fin
  deriving DecidableEq, Repr

abbrev XState := XMode × List Bytes

/-- A character allowed in an XML 1.0 document (production Char, restricted to one byte). -/
def isXmlChar (n : Nat) : Bool := n == 9 || n == 10 || n == 13 || 32 ≤ n

/-- Element names: ASCII letters and underscores, then also digits. -/
def isNameStart (c : UInt8) : Bool := (65 ≤ c && c ≤ 90) || (97 ≤ c && c ≤ 122) || c == 95
def isName (n : Bytes) : Bool :=
  match n with
  | [] => false
  | c :: cs => isNameStart c && cs.all fun c => isNameStart c || (48 ≤ c && c ≤ 57)

def cdataOpen : Bytes := b!"[CDATA["

def xmlStep (s : XState) (c : UInt8) : Option (XState × List XEvent) :=
  match s with
  | (.text, stack) =>
    if c = 60 then some ((.lt, stack), [])
    else if stack.isEmpty then none
    else if c = 38 then some ((.amp, stack), [])
    else if isXmlChar c.toNat && c < 128 then some ((.text, stack), [.char c.toNat])
    else none
  | (.lt, stack) =>
    if c = 47 then some ((.closeName [], stack), [])
    else if c = 33 then (if stack.isEmpty then none else some ((.bang 0, stack), []))
    else some ((.openName [c], stack), [])
  | (.openName n, stack) =>
    if c = 62 then (if isName n then some ((.text, n :: stack), [.opened n]) else none)
    else some ((.openName (n ++ [c]), stack), [])
  | (.closeName n, stack) =>
    if c = 62 then
      match stack with
      | m :: rest =>
        if n = m then some ((if rest.isEmpty then .fin else .text, rest), [.closed n]) else none
      | [] => none
    else some ((.closeName (n ++ [c]), stack), [])
  | (.bang k, stack) =>
    if cdataOpen[k]? = some c then some ((if k = 6 then .cdata 0 else .bang (k + 1), stack), []) else none
  | (.cdata k, stack) =>
    if c = 93 then
      if k = 2 then some ((.cdata 2, stack), [.char 93]) else some ((.cdata (k + 1), stack), [])
    else if c = 62 ∧ k = 2 then some ((.text, stack), [])
    else if isXmlChar c.toNat && c < 128 then
      some ((.cdata 0, stack), List.replicate k (.char 93) ++ [.char c.toNat])
    else none
  | (.amp, stack) => if c = 35 then some ((.ref [], stack), []) else none
  | (.ref ds, stack) =>
    if c = 59 then
      match readNumeral 10 ds with
      | some n => if isXmlChar n then some ((.text, stack), [.char n]) else none
      | none => none
    else some ((.ref (ds ++ [c]), stack), [])
  | (.fin, _) => none

/-- The events of a complete XML document (one root element); `none` if the text is not one. -/
def xmlDocument (s : Bytes) : Option (List XEvent) :=
  match run xmlStep (.text, []) s with
  | some ((.fin, []), ev) => some ev
  | _ => none

/-- The content of an XML element: elements and characters. -/
inductive XVal
  | elem (name : Bytes) (content : List XVal)
  | chars (cs : List Nat)

mutual
/-- The events of a part of a document. -/
def XVal.events : XVal → List XEvent
  | .elem n vs => .opened n :: XVal.listEvents vs ++ [.closed n]
  | .chars cs => cs.map .char
def XVal.listEvents : List XVal → List XEvent
  | [] => []
  | v :: vs => v.events ++ XVal.listEvents vs
end

/-- An element that contains ASCII text. -/
def XVal.leaf (name text : Bytes) : XVal := .elem name [.chars (text.map UInt8.toNat)]

/-- The lists have equal length and corresponding elements are related. -/
inductive Pointwise {α β : Type} (R : α → β → Prop) : List α → List β → Prop
  | nil : Pointwise R [] []
  | cons {a : α} {b : β} {as : List α} {bs : List β} : R a b → Pointwise R as bs → Pointwise R (a :: as) (b :: bs)

/-! ## Separated text -/

/-- The pieces of a text between the occurrences of a separator (always at least one piece). -/
def splitAll (sep : UInt8) : Bytes → List Bytes
  | [] => [[]]
  | c :: cs =>
    if c = sep then [] :: splitAll sep cs
    else match splitAll sep cs with
      | [] => [[c]]
      | p :: ps => (c :: p) :: ps

end Fileid.Spec
