import Verif.Spec.Sections

/-!
# Specification: sections given more than once
-/

namespace MshIO

/-- The section names whose contents are added to what is there, in every version. -/
def addedSections : List Bytes := [b! "NodeData", b! "ElementData", b! "ElementNodeData"]

/-- What is there followed by what is added. -/
def Entities.append (a b : Entities) : Entities :=
  ⟨a.points ++ b.points, a.curves ++ b.curves, a.surfaces ++ b.surfaces, a.volumes ++ b.volumes⟩

/-- The spec of a file that holds nothing but its format. -/
def onlyFormat (f : MeshFormat) : MshSpec := { meshFormat := f }

/-- `s` with the entry `d` added at the end of the list that the data section `name` belongs to. -/
def MshSpec.addData (name : Bytes) (d : Data) (s : MshSpec) : MshSpec :=
  if name = b! "NodeData" then { s with nodeData := s.nodeData ++ [d] }
  else if name = b! "ElementData" then { s with elementData := s.elementData ++ [d] }
  else { s with elementNodeData := s.elementNodeData ++ [d] }

/-- `t` is `s`, which holds nodes already, with the nodes of `t0` added: blocks, counts (modulo `2^64`) and the range of the tags. -/
structure AddsNodes (s t0 t : MshSpec) : Prop where
  rest : t = { s with nodes := t.nodes }
  blocks : t.nodes.entityBlocks = s.nodes.entityBlocks ++ t0.nodes.entityBlocks
  numBlocks : t.nodes.numEntityBlocks = s.nodes.numEntityBlocks + t0.nodes.numEntityBlocks
  numNodes : t.nodes.numNodes = s.nodes.numNodes + t0.nodes.numNodes
  lo : t.nodes.minNodeTag.toNat = min s.nodes.minNodeTag.toNat t0.nodes.minNodeTag.toNat
  hi : t.nodes.maxNodeTag.toNat = max s.nodes.maxNodeTag.toNat t0.nodes.maxNodeTag.toNat

/-- `t` is `s` with the elements of `t0` added: blocks, the range of the tags (that of `t0` alone when `s` has no elements), and the entities
made for the elements.  The counts are not part of this. -/
structure AddsElements (s t0 t : MshSpec) : Prop where
  rest : t = { s with elements := t.elements, entities := t.entities }
  blocks : t.elements.entityBlocks = s.elements.entityBlocks ++ t0.elements.entityBlocks
  lo : t.elements.minElementTag.toNat = if s.elements.entityBlocks = [] then t0.elements.minElementTag.toNat
    else min s.elements.minElementTag.toNat t0.elements.minElementTag.toNat
  hi : t.elements.maxElementTag.toNat = if s.elements.entityBlocks = [] then t0.elements.maxElementTag.toNat
    else max s.elements.maxElementTag.toNat t0.elements.maxElementTag.toNat
  entities : t.entities = s.entities.append t0.entities

end MshIO
