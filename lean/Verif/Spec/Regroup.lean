import Verif.Spec.Mesh22
import Verif.Spec.Undefined

/-!
# What follows reading a file of version 2.2

A file of version 2.2 lists nodes and elements one by one; `load_msh` puts them into the blocks of version 4.1 (`src/load_msh_post_process.cpp`).  This says what comes out, and when
it does.
-/

namespace MshIO

/-- The nodes read, cut where the entity changes.  The entity of a node is that of the last element with that node. -/
def MshSpec.nodeRuns (s : MshSpec) : List (List MeshNode) := runs (fun n => lastEntity s.elements.list n.tag) s.nodes.list

/-- The elements read, cut where the entity or the type changes. -/
def MshSpec.elementRuns (s : MshSpec) : List (List MeshElem) := runs MeshElem.key s.elements.list

/-- There is enough memory for the blocks: for the list of node blocks, for three coordinates of each node of a block, and for the tag and the nodes of each element of a block. -/
structure RunsFit (cfg : Cfg) (s : MshSpec) : Prop where
  blocks : s.nodeRuns.length ≤ cfg.maxCount
  nodes : ∀ run ∈ s.nodeRuns, 3 * run.length ≤ cfg.maxCount
  elements : ∀ run ∈ s.elementRuns, (run.map fun e => 1 + e.nodes.length).sum ≤ cfg.maxCount

/-- All tags looked up lie in the table of node tags. -/
def MshSpec.TagsInside (s : MshSpec) : Prop := ∀ tag, s.LooksUp tag → s.tableIndex tag < s.tableSize

/-- What becomes of `s`: a block for each run of nodes and of elements, and nothing else changes. -/
def MshSpec.regrouped (s : MshSpec) : MshSpec :=
  { s with
    nodes := { s.nodes with
      numEntityBlocks := UInt64.ofNat s.nodeRuns.length
      entityBlocks := runBlocks (fun n => lastEntity s.elements.list n.tag) nodeBlockOf s.nodes.list }
    elements := { s.elements with
      numEntityBlocks := UInt64.ofNat s.elementRuns.length
      entityBlocks := runBlocks MeshElem.key elementBlockOf s.elements.list } }

/-- After `s` has been read there is not enough memory: in version 2.2, for the table of node tags; or the tags looked up lie in it, and there is not enough for the blocks. -/
def RegroupingExhausts (cfg : Cfg) (s : MshSpec) : Prop :=
  s.meshFormat.version = b! "2.2" ∧ ((cfg.maxCount : Int) < s.tableSize ∨ (s.TagsInside ∧ ¬ RunsFit cfg s))

/-- Nothing goes wrong after `s` has been read. -/
def RegroupingWorks (cfg : Cfg) (s : MshSpec) : Prop :=
  s.meshFormat.version = b! "2.2" → s.tableSize ≤ cfg.maxCount ∧ s.TagsInside ∧ RunsFit cfg s

/-- What is returned after `s` has been read. -/
def MshSpec.final (s : MshSpec) : MshSpec := if s.meshFormat.version = b! "2.2" then s.regrouped else s

end MshIO
