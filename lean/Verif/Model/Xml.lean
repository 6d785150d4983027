import Verif.Model.MaterialWriters
import Verif.Model.OpenMCInput
import Verif.Model.SurfaceWriters

/-!
# The xml files for OpenMC

The trees that are built (OpenMCSurface.py, OpenMCCell.py, OpenMCMaterial.py, OpenMCInput.py), `indent`, and the text that `xml.etree.ElementTree.ElementTree.write` of the Python library makes from a tree.
-/

namespace Csg

/-- An `xml.etree` element: tag, attributes in order, text before the first child, children, text behind the element. An empty text stands for `None`. -/
inductive Xml
  | node (tag : Str) (attrs : List (Str × Str)) (text : Str) (children : List Xml) (tail : Str)

/-- `ET.SubElement` with attributes only, and with children added afterwards. -/
def Xml.fresh (tag : Str) (attrs : List (Str × Str)) (children : List Xml) : Xml := .node tag attrs [] children []

/-- The element of a surface (OpenMCSurface.py 83-90). -/
def xmlSurface (s : OpenmcSurface) : Xml := .fresh c!"surface" [(c!"id", s.id), (c!"type", s.type), (c!"coeffs", s.coeffs), (c!"boundary", s.boundary)] []

/-- The element of a cell (OpenMCCell.py 147-166). -/
def xmlCell (e : OpenMCCellElem) : Xml :=
  match e.filled with
  | some (f, r, t) => .fresh c!"cell" [(c!"id", e.id), (c!"region", e.region), (c!"universe", e.uni), (c!"fill", f), (c!"rotation", r), (c!"translation", t)] []
  | none => .fresh c!"cell" [(c!"id", e.id), (c!"material", e.material.getD []), (c!"region", e.region), (c!"universe", e.uni)] []

/-- The element of a nuclide (OpenMCMaterial.py 146-155). -/
def xmlNuclide (n : OpenmcNuclide) : Xml := .fresh c!"nuclide" [(c!"name", n.name), (if n.mass then c!"wo" else c!"ao", n.frac)] []

/-- The element of a material (OpenMCMaterial.py 168-176). -/
def xmlMaterial (m : OpenmcMaterial) : Xml :=
  .fresh c!"material" [(c!"id", m.id), (c!"name", m.name)] (.fresh c!"density" [(c!"value", m.density), (c!"units", m.units)] [] :: m.nuclides.map xmlNuclide)

/-- Nothing or only white space (`not elem.text or not elem.text.strip()`). -/
def blankText (s : Str) : Bool := (strip s).isEmpty

/-- The text behind an element is replaced if it is blank. -/
def Xml.setTail (i : Str) : Xml → Xml
  | .node tag attrs text cs tail => .node tag attrs text cs (if blankText tail then i else tail)

/-- A new line and two blanks for each level (OpenMCInput.py 21). -/
def indentOf (level : Nat) : Str := '\n' :: (List.replicate level c!"  ").flatten

/-- The text behind the last element. -/
def setLastTail (i : Str) : List Xml → List Xml
  | [] => []
  | [x] => [x.setTail i]
  | x :: y :: ys => x :: setLastTail i (y :: ys)

mutual

/-- `indent` (OpenMCInput.py 20-33). The loop over the children uses the name of the parameter as its variable, so that lines 29 and 30 concern the last child. -/
def Xml.indent (level : Nat) : Xml → Xml
  | .node tag attrs text cs tail =>
    if cs.isEmpty then .node tag attrs text cs (if level ≠ 0 ∧ blankText tail then indentOf level else tail)
    else .node tag attrs (if blankText text then indentOf level ++ c!"  " else text) (setLastTail (indentOf level) (Xml.indentAll (level + 1) cs)) (if blankText tail then indentOf level else tail)

/-- `indent` for all children (OpenMCInput.py 27-28). -/
def Xml.indentAll (level : Nat) : List Xml → List Xml
  | [] => []
  | x :: xs => x.indent level :: Xml.indentAll level xs

end

/-- A character in an attribute: `_escape_attrib`, and the encoding of other characters in ASCII. A carriage return is written in different ways by different versions of Python; here it is kept. -/
def escapeAttr (c : Char) : Str :=
  if c = '&' then c!"&amp;" else if c = '<' then c!"&lt;" else if c = '>' then c!"&gt;" else if c = '"' then c!"&quot;" else if c = '\n' then c!"&#10;" else if c = '\t' then c!"&#09;"
  else if 128 ≤ c.toNat then c!"&#" ++ natStr c.toNat ++ c!";" else [c]

/-- A character between elements: `_escape_cdata`. -/
def escapeText (c : Char) : Str :=
  if c = '&' then c!"&amp;" else if c = '<' then c!"&lt;" else if c = '>' then c!"&gt;" else if 128 ≤ c.toNat then c!"&#" ++ natStr c.toNat ++ c!";" else [c]

mutual

/-- `_serialize_xml`. The attributes are written in the order in which they were given, as since Python 3.8; before they were sorted by name. -/
def Xml.write : Xml → Str
  | .node tag attrs text cs tail =>
    c!"<" ++ tag ++ attrs.flatMap (fun a => c!" " ++ a.1 ++ c!"=\"" ++ a.2.flatMap escapeAttr ++ c!"\"") ++
      (if text = [] ∧ cs.isEmpty then c!" />" else c!">" ++ text.flatMap escapeText ++ Xml.writeAll cs ++ c!"</" ++ tag ++ c!">") ++ tail.flatMap escapeText

def Xml.writeAll : List Xml → Str
  | [] => []
  | x :: xs => x.write ++ Xml.writeAll xs

end

/-- `geometry.xml` (OpenMCInput.py 104-112). With the default encoding there is no declaration. -/
def geometryXml (ss : List OpenmcSurface) (cs : List OpenMCCellElem) : Str := ((Xml.fresh c!"geometry" [] (ss.map xmlSurface ++ cs.map xmlCell)).indent 0).write

/-- `materials.xml` (OpenMCInput.py 115-119). -/
def materialsXml (ms : List OpenmcMaterial) : Str := ((Xml.fresh c!"materials" [] (ms.map xmlMaterial)).indent 0).write

end Csg
