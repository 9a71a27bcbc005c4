import Verif.Model.Classes
import Verif.Props.Values
/-!
# Property theorems C107: association lists in several reports
-/
namespace Props.Frames
open Spec Model Model.Classes Model.Classes.Assoc

/-- One association report: group `g`, at most `mx` nodes, `k` more reports to follow, and the nodes in this one. -/
def frame (g mx k : UInt8) (nodes : Bytes) : Bytes := 0x85 :: 0x03 :: g :: mx :: k :: nodes

/-- The reports by which a node tells the nodes of a group: in parts, each with the number of those that follow. -/
def frames (g mx : UInt8) : List Bytes → List Bytes
  | [] => []
  | p :: ps => frame g mx (UInt8.ofNat ps.length) p :: frames g mx ps

/-- The group holds these nodes. -/
def Holds (d : Dict Int Group) (g : UInt8) (nodes : Bytes) : Prop := ∃ x, d.get? g.toNat = some x ∧ x.nodes = nodes.map fun b => (b.toNat, none)

/-- The full property: after asking for a group, it holds all nodes that were reported for it, in however many reports. -/
def C107_statement : Prop := ∀ (supp : Nat → Bool) (d : Dict Int Group) (g mx : UInt8) (parts : List Bytes) (first : Bytes) (m : Msg), (∀ p ∈ parts, 0 ∉ p) → d.mem g.toNat = true →
  (frames g mx parts)[0]? = some first → decode first = .ok m → Holds (interviewGrouping supp d g.toNat (.ok m)).1 g parts.flatten

theorem deserNodes_plain : ∀ b : Bytes, 0 ∉ b → deserNodes b = .ok (b.map fun x => (x.toNat, none))
  | [], _ => rfl
  | x :: b, h => by
    have hx : x ≠ 0 := fun e => h (by simp [e])
    have := deserNodes_plain b fun hb => h (List.mem_cons_of_mem _ hb)
    simp [deserNodes, hx, this, bind, Except.bind, pure, Except.pure]

theorem frame_decode (g mx k : UInt8) (nodes : Bytes) (h : 0 ∉ nodes) : ∃ m, decode (frame g mx k nodes) = .ok m ∧ numAttr m "groupingIdentifier" = some (g.toNat : Int) ∧
    numAttr m "maxNodesSupported" = some (mx.toNat : Int) ∧ numAttr m "reportsToFollow" = some (k.toNat : Int) ∧
    getAttr registry m "nodes" = some (.nodes (nodes.map fun x => (x.toNat, none))) := by
  have hf : registry.find? (fun d => d.hid = Reg.Association.Report.hid) = some Reg.Association.Report := by decide +kernel
  unfold frame
  rw [decode_def (d := Reg.Association.Report) (by decide +kernel) _ _ (by decide)]
  simp only [Reg.Association.Report]
  step_u8 g
  step_u8 mx
  step_u8 k
  rw [show 0x85 :: 0x03 :: g :: mx :: k :: nodes = [0x85, 0x03, g, mx, k] ++ nodes from rfl, parse_last (start := 40) rfl (by decide)]
  by_cases hn : nodes = []
  · subst hn
    rw [if_pos rfl]
    refine ⟨_, rfl, rfl, rfl, rfl, ?_⟩
    have key : ∀ h a, registry.find? (fun d => d.hid = h) = some Reg.Association.Report → Dict.get? a "nodes" = none → getAttr registry (.known h a) "nodes" = some (.nodes []) := by
      intro h a hf ha
      unfold getAttr
      rw [show Msg.attr (.known h a) "nodes" = none from ha]
      simp only [show (Msg.known h a).hid = h from rfl]
      rw [hf]
      rfl
    exact key _ _ hf rfl
  · rw [if_neg hn]
    have e : (Reader.mk ([0x85, 0x03, g, mx, k] ++ nodes) 40).remaining.1 = nodes := by simp [Reader.remaining]
    have e2 : readField ⟨"nodes", .nodes, none, none⟩ [("groupingIdentifier", Val.num (.uint 1) g.toNat), ("maxNodesSupported", .num (.uint 1) mx.toNat),
        ("reportsToFollow", .num (.uint 1) k.toNat)] ⟨[0x85, 0x03, g, mx, k] ++ nodes, 40⟩ =
        .ok (.nodes (nodes.map fun x => (x.toNat, none)), (Reader.mk ([0x85, 0x03, g, mx, k] ++ nodes) 40).remaining.2) := by
      simp only [readField, deserVal, e, deserNodes_plain nodes h, bind, Except.bind, pure, Except.pure]
    rw [e2]
    step_attr
    refine ⟨_, rfl, rfl, rfl, rfl, rfl⟩

/-- **C107.** What holds: the group holds the nodes of the first report. -/
theorem C107_first_partial (supp : Nat → Bool) (d : Dict Int Group) (g mx k : UInt8) (nodes : Bytes) (h : 0 ∉ nodes) (hg : d.mem g.toNat = true) :
    ∃ m, decode (frame g mx k nodes) = .ok m ∧ Holds (interviewGrouping supp d g.toNat (.ok m)).1 g nodes ∧ (interviewGrouping supp d g.toNat (.ok m)).2.2 = .ok () := by
  obtain ⟨m, e, h1, h2, -, h4⟩ := frame_decode g mx k nodes h
  refine ⟨m, e, ?_⟩
  have eu : update d g.toNat m = (d.set g.toNat ⟨mx.toNat, nodes.map fun x => (x.toNat, none)⟩, .ok ()) := by
    simp only [update, h1, if_true, needNum, h2, h4]
  simp only [interviewGrouping, hg, if_true, eu, and_true]
  exact ⟨_, Dict.get?_set_self .., rfl⟩

/-- **C107.** So a list that fits in one report is held completely. -/
theorem C107_single_partial (supp : Nat → Bool) (d : Dict Int Group) (g mx : UInt8) (nodes first : Bytes) (m : Msg) (h : 0 ∉ nodes) (hg : d.mem g.toNat = true)
    (hf : (frames g mx [nodes])[0]? = some first) (hm : decode first = .ok m) : Holds (interviewGrouping supp d g.toNat (.ok m)).1 g nodes := by
  obtain ⟨m', e, h1, -⟩ := C107_first_partial supp d g mx 0 nodes h hg
  cases hf
  rw [show frame g mx (UInt8.ofNat ([] : List Bytes).length) nodes = frame g mx 0 nodes from rfl, e] at hm
  cases hm
  exact h1

/-- **C107.** Of a list that is reported in two parts the second is not held. -/
theorem C107_violated : ¬ C107_statement := by
  intro h
  obtain ⟨m, e, ⟨x, hx, hl⟩, -⟩ := C107_first_partial (fun _ => false) [(1, ⟨0, []⟩)] 1 9 1 [2, 3] (by decide) (by decide)
  obtain ⟨y, hy, hl'⟩ := h (fun _ => false) [(1, ⟨0, []⟩)] 1 9 [[2, 3], [4]] (frame 1 9 1 [2, 3]) m (by decide) (by decide) rfl e
  rw [hx] at hy
  cases hy
  rw [hl] at hl'
  revert hl'
  decide

end Props.Frames
