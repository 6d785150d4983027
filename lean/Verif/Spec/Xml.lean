import Verif.Model.Py

/-!
# How xml is read

A part of xml, written down from its definition: elements with attributes in double quotes, and white space between them. References to characters by name or number are resolved. There are no comments,
declarations, or other texts.
-/

namespace Csg.Spec

/-- The pieces of a text: `(true, s)` for what is between `<` and `>`, and `(false, s)` for what is between two of these. A `>` in double quotes does not end a tag. The state is the piece so far, and in a tag
whether quotes are open. -/
def xmlPieces : Option Bool → Str → Str → Option (List (Bool × Str))
  | none, acc, [] => some [(false, acc)]
  | some _, _, [] => none
  | none, acc, c :: cs => if c = '<' then (xmlPieces (some false) [] cs).map ((false, acc) :: ·) else xmlPieces none (acc ++ [c]) cs
  | some q, acc, c :: cs =>
    if c = '>' ∧ q = false then (xmlPieces none [] cs).map ((true, acc) :: ·)
    else if c = '<' then none
    else xmlPieces (some (if c = '"' then !q else q)) (acc ++ [c]) cs

/-- The character of a reference. -/
def xmlReference (name : Str) : Option Char :=
  if name = c!"amp" then some '&' else if name = c!"lt" then some '<' else if name = c!"gt" then some '>' else if name = c!"quot" then some '"' else if name = c!"apos" then some '\''
  else match name with
    | '#' :: ds => (parseNat ds).map Char.ofNat
    | _ => none

/-- The characters of xml. -/
def xmlChar (c : Char) : Bool := c = '\t' || c = '\n' || c = '\r' || (decide (32 ≤ c.toNat) && c.toNat != 0xfffe && c.toNat != 0xffff)

/-- The value of an attribute: references are resolved, and white space that is not given by a reference becomes blanks. The state is the name of a reference that has begun. -/
def xmlDecode : Option Str → Str → Option Str
  | none, [] => some []
  | some _, [] => none
  | none, c :: cs => if c = '&' then xmlDecode (some []) cs else if xmlChar c = false then none else (xmlDecode none cs).map ((if c = '\n' ∨ c = '\t' ∨ c = '\r' then ' ' else c) :: ·)
  | some n, c :: cs => if c = ';' then (xmlReference n).bind fun d => if xmlChar d = false then none else (xmlDecode none cs).map (d :: ·) else xmlDecode (some (n ++ [c])) cs

/-- A name consists of letters. (Names in xml may have more.) -/
def xmlName (s : Str) : Bool := !s.isEmpty && s.all Char.isAlpha

/-- The attributes in a text that was cut at the quotes: in turn ` name=` and a value. -/
def xmlAttrs : List Str → Option (List (Str × Str))
  | [] => none
  | [s] => if s.all isSpace then some [] else none
  | k :: v :: rest =>
    match k with
    | ' ' :: k =>
      if k.getLast? = some '=' ∧ xmlName k.dropLast then (xmlDecode none v).bind fun v => (xmlAttrs rest).map ((k.dropLast, v) :: ·) else none
    | _ => none

/-- What a tag says. -/
inductive XmlTag
  | start (tag : Str) (attrs : List (Str × Str))
  | stop (tag : Str)
  | empty (tag : Str) (attrs : List (Str × Str))
  deriving DecidableEq, Repr

/-- The meaning of the text between `<` and `>`. No attribute may be given twice. -/
def xmlTag (s : Str) : Option XmlTag :=
  match s with
  | '/' :: name => if xmlName name then some (.stop name) else none
  | _ =>
    let (s, empty) := if s.getLast? = some '/' then (s.dropLast, true) else (s, false)
    let name := s.takeWhile fun c => !isSpace c
    (xmlAttrs (splitOnChar '"' (s.dropWhile fun c => !isSpace c))).bind fun attrs =>
      if xmlName name ∧ (attrs.map Prod.fst).Nodup then some (if empty then .empty name attrs else .start name attrs) else none

/-- An element: tag, attributes, and the elements in it. -/
inductive XmlNode
  | node (tag : Str) (attrs : List (Str × Str)) (children : List XmlNode)

/-- An element that has not ended yet: tag, attributes, and the elements in it so far. -/
abbrev XmlOpen := Str × List (Str × Str) × List XmlNode

/-- An element has ended: it belongs to the one around it, or is the whole document. -/
def xmlClose (x : XmlNode) : List XmlOpen → Sum (List XmlOpen) XmlNode
  | [] => .inr x
  | (t, as, xs) :: st => .inl ((t, as, xs ++ [x]) :: st)

/-- The pieces as a tree. The state is the list of the elements that have not ended, the innermost first, or the whole document. -/
def xmlBuild : Sum (List XmlOpen) XmlNode → List (Bool × Str) → Option XmlNode
  | .inl _, [] => none
  | .inr x, [] => some x
  | st, (false, s) :: ps => if s.all isSpace then xmlBuild st ps else none
  | .inr _, (true, _) :: _ => none
  | .inl st, (true, s) :: ps =>
    match xmlTag s with
    | none => none
    | some (.start t as) => xmlBuild (.inl ((t, as, []) :: st)) ps
    | some (.empty t as) => xmlBuild (xmlClose (.node t as []) st) ps
    | some (.stop t) =>
      match st with
      | [] => none
      | (t', as, xs) :: st => if t' = t then xmlBuild (xmlClose (.node t as xs) st) ps else none

/-- The document in a text. -/
def xmlRead (s : Str) : Option XmlNode := (xmlPieces none [] s).bind (xmlBuild (.inl []))

end Csg.Spec
