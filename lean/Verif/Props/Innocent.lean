import Verif.Spec.Innocent
import Verif.Props.ClassRun
import Verif.Props.Frames
import Verif.Props.Collections
/-!
# Property theorems C151: what interviews raise
-/
namespace Props.Innocent
open Spec Model Model.Body Model.ClassRun
open Model.Listen (Ret)
open Model.Classes (needNum numAttr)

variable {σ : Type} {Q : (σ → σ) → Prop}

/-- As `Innocent`, from states that satisfy `J`. -/
private def From (Q : (σ → σ) → Prop) (J : σ → Prop) (p : Prog σ) : Prop :=
  ∀ (s : σ) (xs : List (Reply σ)) (e : PyErr), J s → (∀ x ∈ xs, Q x.others) → (exec p s xs).result = some (.error e) → (∀ i ∈ (exec p s xs).items, WholeItem i) →
    ∃ i ∈ (exec p s xs).items, Blames e i

private theorem from_ok {J : σ → Prop} (v : Ret) : From Q J (.ret (.ok v)) := by
  intro s xs e _ _ h _
  simp [exec] at h

/-- What raises only `e`. -/
private theorem from_ask {J : σ → Prop} {q : Query} {k : Py Msg → Prog σ} {K : σ → Prop} (hJ : ∀ s f, J s → Q f → K (f s))
    (h1 : ∀ m, Whole q m → From Q K (k (.ok m))) (h2 : ∀ e, From Q K (k (.error e)) ∨ k (.error e) = .ret (.error e)) : From Q J (.ask q k) := by
  intro s xs e hs hx hr hw
  cases xs with
  | nil => simp [exec] at hr
  | cons x xs =>
    simp only [exec, Out.after] at hr hw ⊢
    have hx' : ∀ y ∈ xs, Q y.others := fun y hy => hx y (List.mem_cons_of_mem _ hy)
    have hk := hJ s x.others hs (hx x (List.mem_cons_self ..))
    have hw' := fun i hi => hw i (List.mem_cons_of_mem _ hi)
    cases hm : x.msg with
    | ok m =>
      rw [hm] at hr hw hw'
      obtain ⟨i, hi, hb⟩ := h1 m (hw _ (List.mem_cons_self ..)) _ _ _ hk hx' hr hw'
      exact ⟨i, List.mem_cons_of_mem _ hi, hb⟩
    | error e' =>
      rw [hm] at hr hw hw'
      rcases h2 e' with h | h
      · obtain ⟨i, hi, hb⟩ := h _ _ _ hk hx' hr hw'
        exact ⟨i, List.mem_cons_of_mem _ hi, hb⟩
      · rw [h] at hr
        simp only [exec, Option.some.injEq, Except.error.injEq] at hr
        exact ⟨_, List.mem_cons_self .., hr⟩

private theorem from_send {J : σ → Prop} {c : Command} {k : Py Bool → Prog σ} {K : σ → Prop} (hJ : ∀ s f, J s → Q f → K (f s))
    (h1 : ∀ b, From Q K (k (.ok b))) (h2 : ∀ e, k (.error e) = .ret (.error e)) : From Q J (.send c k) := by
  intro s xs e hs hx hr hw
  cases xs with
  | nil => simp [exec] at hr
  | cons x xs =>
    simp only [exec, Out.after] at hr hw ⊢
    have hx' : ∀ y ∈ xs, Q y.others := fun y hy => hx y (List.mem_cons_of_mem _ hy)
    have hk := hJ s x.others hs (hx x (List.mem_cons_self ..))
    have hw' := fun i hi => hw i (List.mem_cons_of_mem _ hi)
    cases hm : x.ack with
    | ok m =>
      rw [hm] at hr hw'
      obtain ⟨i, hi, hb⟩ := h1 m _ _ _ hk hx' hr hw'
      exact ⟨i, List.mem_cons_of_mem _ hi, hb⟩
    | error e' =>
      rw [hm] at hr
      rw [h2] at hr
      simp only [exec, Option.some.injEq, Except.error.injEq] at hr
      exact ⟨_, List.mem_cons_self .., hr⟩

private theorem from_look {J : σ → Prop} {k : σ → Prog σ} (h : ∀ s, J s → From Q (fun t => t = s) (k s)) : From Q J (.look k) :=
  fun s xs e hs hx hr hw => h s hs s xs e rfl hx hr hw

private theorem from_write {J K : σ → Prop} {f : σ → σ} {p : Prog σ} (hJ : ∀ s, J s → K (f s)) (h : From Q K p) : From Q J (.write f p) :=
  fun s xs e hs hx hr hw => h (f s) xs e (hJ s hs) hx hr hw

private theorem From.weaken {J K : σ → Prop} {p : Prog σ} (h : From Q K p) (hJ : ∀ s, J s → K s) : From Q J p := fun s xs e hs => h s xs e (hJ s hs)

private theorem From.innocent {p : Prog σ} (h : From Q (fun _ => True) p) : Innocent Q p := fun s xs e hx hr hw => h s xs e trivial hx hr hw

/-- Anything. -/
def Any : (σ → σ) → Prop := fun _ => True

private theorem from_copy (m : Msg) (names : List String) (h : ∀ n ∈ names, ∃ x, needNum m n = .ok x) : From Any (fun _ => True) (copy m names) := by
  induction names with
  | nil => exact from_ok _
  | cons n ns ih =>
    obtain ⟨x, hx⟩ := h n (List.mem_cons_self ..)
    simp only [copy, hx]
    exact from_write (fun _ _ => trivial) (ih fun n hn => h n (List.mem_cons_of_mem _ hn))

private theorem innocent_copying (q : Query) (names : List String) (h : ∀ m, Whole q m → ∀ n ∈ names, ∃ x, needNum m n = .ok x) : Innocent Any (copying q names) :=
  From.innocent (from_ask (K := fun _ => True) (fun _ _ _ _ => trivial) (fun m hm => from_copy m names (h m hm)) fun _ => .inr rfl)

private theorem from_sensorLoop (l : List Nat) : From Any (fun _ => True) (Body.sensorLoop l) := by
  induction l with
  | nil => exact from_ok _
  | cons t ts ih =>
    refine from_ask (K := fun _ => True) (fun _ _ _ _ => trivial) (fun m hm => ?_) fun _ => .inr rfl
    obtain ⟨x, hx⟩ := hm
    simp only [hx]
    exact from_write (fun _ _ => trivial) ih

private theorem innocent_sensor : Innocent Any Body.sensor := by
  refine From.innocent (from_look fun s _ => ?_)
  split
  · exact from_ok _
  · refine from_ask (K := fun _ => True) (fun _ _ _ _ => trivial) (fun m hm => ?_) fun _ => .inr rfl
    obtain ⟨l, hl⟩ := hm
    simp only [hl]
    exact from_sensorLoop l

/-! ## Association -/

/-- The groups stay the same groups. -/
def SameGroups (f : Dict Int Classes.Assoc.Group → Dict Int Classes.Assoc.Group) : Prop := ∀ d, (f d).keys = d.keys

theorem keys_update (d : Dict Int Classes.Assoc.Group) (g : Int) (m : Msg) (h : g ∈ d.keys) : (Classes.Assoc.update d g m).1.keys = d.keys := by
  unfold Classes.Assoc.update
  split
  · split
    · rfl
    · split
      · rw [Dict.keys_set, if_pos h]
      · rfl
  · rfl

theorem update_whole (d : Dict Int Classes.Assoc.Group) (g : Int) (m : Msg) (multi : Bool) (h : Whole (.group multi g) m) : (Classes.Assoc.update d g m).2 = .ok () := by
  obtain ⟨⟨x, hx⟩, l, hl⟩ := h
  unfold Classes.Assoc.update
  split
  · simp only [hx, hl]
  · rfl

theorem mem_keys' (d : Dict Int Classes.Assoc.Group) (g : Int) : d.mem g = true ↔ g ∈ d.keys := Lemmas.App.mem_iff d g

private theorem from_grouping (supp : Nat → Bool) (g : Int) (ks : List Int) (hg : g ∈ ks) (k : Py Unit → Prog (Dict Int Classes.Assoc.Group))
    (h1 : From SameGroups (fun d => d.keys = ks) (k (.ok ()))) (h2 : ∀ e, From SameGroups (fun d => d.keys = ks) (k (.error e)) ∨ k (.error e) = .ret (.error e)) :
    From SameGroups (fun d => d.keys = ks) (grouping supp g k) := by
  refine from_look fun d hd => ?_
  have hm : d.mem g = true := (mem_keys' d g).2 (hd ▸ hg)
  rw [if_pos hm]
  refine from_ask (K := fun d => d.keys = ks) ?_ (fun m hw => ?_) h2
  · rintro s f rfl hf; rw [hf]; exact hd
  · refine from_look fun d' hd' => ?_
    rw [update_whole d' g m _ hw]
    refine from_write ?_ h1
    rintro s rfl
    rw [keys_update s g m (hd' ▸ hg)]; exact hd'

theorem lifeLineMsg_ok (supp : Nat → Bool) (g : Int) : ∃ m, Classes.Assoc.lifeLineMsg supp g = .ok m := by
  unfold Classes.Assoc.lifeLineMsg
  split <;> exact ⟨_, rfl⟩

private theorem from_lifeLine (supp : Nat → Bool) (g : Int) (ks : List Int) : From SameGroups (fun d => d.keys = ks) (lifeLine supp g) := by
  unfold lifeLine
  dsimp only
  split
  · refine from_look fun d hd => ?_
    cases hg : d.get? g with
    | none => exact from_ok _
    | some grp =>
      dsimp only
      split
      · exact from_ok _
      · obtain ⟨m, hm⟩ := lifeLineMsg_ok supp g
        simp only [hm]
        refine from_send (K := fun d => d.keys = ks) ?_ (fun b => ?_) fun e => rfl
        · rintro s f rfl hf; rw [hf]; exact hd
        · refine from_grouping supp g ks ?_ _ (from_ok _) fun e => .inr rfl
          rw [← hd]
          exact (mem_keys' d g).1 (by simp [Dict.mem, hg])
  · exact from_ok _

private theorem from_groupLoop (supp : Nat → Bool) (ks : List Int) (gs : List Int) (h : ∀ g ∈ gs, g ∈ ks) : From SameGroups (fun d => d.keys = ks) (groupLoop supp ks.length gs) := by
  have hlen : ∀ d : Dict Int Classes.Assoc.Group, d.keys = ks → d.length = ks.length := by
    intro d hd; rw [← hd, Dict.keys, List.length_map]
  induction gs with
  | nil =>
    refine from_look fun d hd => ?_
    rw [if_pos (hlen d hd)]
    exact (from_lifeLine supp 1 ks).weaken fun s hs => hs ▸ hd
  | cons g gs ih =>
    refine from_look fun d hd => ?_
    rw [if_pos (hlen d hd)]
    refine From.weaken (from_grouping supp g ks (h g (List.mem_cons_self ..)) _ (ih fun g hg => h g (List.mem_cons_of_mem _ hg)) fun e => ?_) fun s hs => hs ▸ hd
    by_cases he : e = .timeout
    · subst he; exact .inl (ih fun g hg => h g (List.mem_cons_of_mem _ hg))
    · cases e <;> first | exact .inr rfl | exact absurd rfl he

private theorem innocent_association (supp : Nat → Bool) : Innocent SameGroups (Body.association supp) := by
  refine From.innocent (from_ask (K := fun _ => True) (fun _ _ _ _ => trivial) (fun m hm => ?_) fun _ => .inr rfl)
  obtain ⟨n, hn⟩ := hm
  simp only [hn]
  refine from_write (K := fun _ => True) (fun _ _ => trivial) (from_look fun d _ => ?_)
  have : d.length = d.keys.length := by rw [Dict.keys, List.length_map]
  rw [this]
  exact (from_groupLoop supp d.keys d.keys fun g hg => hg).weaken fun s hs => by rw [hs]

/-! ## Complete reports -/

private theorem need_of_num {m : Msg} {n : String} (h : ∃ x, numAttr m n = some x) : ∃ x, needNum m n = .ok x := by
  obtain ⟨x, h⟩ := h; exact ⟨x, by simp only [needNum, h]⟩

private theorem nodes_default {h : Nat} {a : Dict String Val} {d : MsgDef} (hf : registry.find? (fun d => d.hid = h) = some d) (hd : d.fields.find? (fun f => f.name = "nodes") = some ⟨"nodes", .nodes, none, none⟩)
    (ha : Dict.get? a "nodes" = none) : getAttr registry (.known h a) "nodes" = some (.nodes []) := by
  unfold getAttr
  rw [show Msg.attr (.known h a) "nodes" = none from ha]
  simp only [show (Msg.known h a).hid = h from rfl]
  rw [hf]
  simp only [hd]
  rfl

private theorem whole_version (a b c d e : UInt8) (tl : Bytes) (m : Msg) (h : decode (0x86 :: 0x12 :: a :: b :: c :: d :: e :: tl) = .ok m) : Whole .version m := by
  rw [decode_def (d := Reg.Version.VersionReport) (by decide +kernel) _ _ (by decide)] at h
  revert h
  simp only [Reg.Version.VersionReport]
  step_u8 a
  step_u8 b
  step_u8 c
  step_u8 d
  step_u8 e
  rintro ⟨⟩
  intro n hn
  simp only [Classes.Copy.versionNames, List.mem_cons, List.not_mem_nil, or_false] at hn
  rcases hn with rfl | rfl | rfl | rfl | rfl <;> exact need_of_num ⟨_, rfl⟩

private theorem whole_manufacturer (a b c d e f : UInt8) (tl : Bytes) (m : Msg) (h : decode (0x72 :: 0x05 :: a :: b :: c :: d :: e :: f :: tl) = .ok m) : Whole .manufacturer m := by
  rw [decode_def (d := Reg.ManufacturerSpecific.Report) (by decide +kernel) _ _ (by decide)] at h
  revert h
  simp only [Reg.ManufacturerSpecific.Report]
  step_u16 a b
  step_u16 c d
  step_u16 e f
  rintro ⟨⟩
  intro n hn
  simp only [Classes.Copy.manufacturerNames, List.mem_cons, List.not_mem_nil, or_false] at hn
  rcases hn with rfl | rfl | rfl <;> exact need_of_num ⟨_, rfl⟩

private theorem whole_plusInfo (a b c d e f g : UInt8) (tl : Bytes) (m : Msg) (h : decode (0x5E :: 0x02 :: a :: b :: c :: d :: e :: f :: g :: tl) = .ok m) : Whole .plusInfo m := by
  rw [decode_def (d := Reg.ZwavePlusInfo.Report) (by decide +kernel) _ _ (by decide)] at h
  revert h
  simp only [Reg.ZwavePlusInfo.Report]
  step_u8 a
  step_u8 b
  step_u8 c
  step_u16 d e
  step_u16 f g
  rintro ⟨⟩
  intro n hn
  simp only [Classes.Copy.plusNames, List.mem_cons, List.not_mem_nil, or_false] at hn
  rcases hn with rfl | rfl | rfl | rfl | rfl <;> exact need_of_num ⟨_, rfl⟩

private theorem whole_scales (t : Nat) (a b : UInt8) (tl : Bytes) (m : Msg) (h : decode (0x31 :: 0x06 :: a :: b :: tl) = .ok m) : Whole (.scales t) m := by
  rw [decode_def (d := Reg.SensorMultilevel.SupportedScaleReport) (by decide +kernel) _ _ (by decide)] at h
  revert h
  simp only [Reg.SensorMultilevel.SupportedScaleReport]
  step_u8 a
  step_bits 4 b
  step_bits 4 b
  rintro ⟨⟩
  exact need_of_num ⟨_, rfl⟩

private theorem whole_groupings (a : UInt8) (tl : Bytes) (m : Msg) (h : decode (0x85 :: 0x06 :: a :: tl) = .ok m) : Whole .groupings m := by
  rw [decode_def (d := Reg.Association.GroupingsReport) (by decide +kernel) _ _ (by decide)] at h
  revert h
  simp only [Reg.Association.GroupingsReport]
  step_u8 a
  rintro ⟨⟩
  exact need_of_num ⟨_, rfl⟩

private theorem whole_group (i : Int) (g mx k : UInt8) (tl : Bytes) (m : Msg) (h : decode (0x85 :: 0x03 :: g :: mx :: k :: tl) = .ok m) : Whole (.group false i) m := by
  have hf : registry.find? (fun d => d.hid = Reg.Association.Report.hid) = some Reg.Association.Report := by decide +kernel
  rw [decode_def (d := Reg.Association.Report) (by decide +kernel) _ _ (by decide)] at h
  revert h
  simp only [Reg.Association.Report]
  step_u8 g
  step_u8 mx
  step_u8 k
  rw [show 0x85 :: 0x03 :: g :: mx :: k :: tl = [0x85, 0x03, g, mx, k] ++ tl from rfl, parse_last (start := 40) rfl (by decide)]
  by_cases hn : tl = []
  · rw [if_pos hn]
    rintro ⟨⟩
    exact ⟨need_of_num ⟨_, rfl⟩, _, nodes_default hf rfl rfl⟩
  · rw [if_neg hn]
    simp only [readField, deserVal]
    generalize (Reader.mk ([0x85, 0x03, g, mx, k] ++ tl) 40).remaining = rm
    cases hd : deserNodes rm.1 with
    | error e => intro h; cases h
    | ok l =>
      rintro ⟨⟩
      exact ⟨need_of_num ⟨_, rfl⟩, _, rfl⟩

private theorem whole_multi (i : Int) (g mx k : UInt8) (tl : Bytes) (m : Msg) (h : decode (0x8E :: 0x03 :: g :: mx :: k :: tl) = .ok m) : Whole (.group true i) m := by
  have hf : registry.find? (fun d => d.hid = Reg.MultiChannelAssociation.MultiChannelReport.hid) = some Reg.MultiChannelAssociation.MultiChannelReport := by decide +kernel
  rw [decode_def (d := Reg.MultiChannelAssociation.MultiChannelReport) (by decide +kernel) _ _ (by decide)] at h
  revert h
  simp only [Reg.MultiChannelAssociation.MultiChannelReport]
  step_u8 g
  step_u8 mx
  step_u8 k
  rw [show 0x8E :: 0x03 :: g :: mx :: k :: tl = [0x8E, 0x03, g, mx, k] ++ tl from rfl, parse_last (start := 40) rfl (by decide)]
  by_cases hn : tl = []
  · rw [if_pos hn]
    rintro ⟨⟩
    exact ⟨need_of_num ⟨_, rfl⟩, _, nodes_default hf rfl rfl⟩
  · rw [if_neg hn]
    simp only [readField, deserVal]
    generalize (Reader.mk ([0x8E, 0x03, g, mx, k] ++ tl) 40).remaining = rm
    cases hd : deserNodes rm.1 with
    | error e => intro h; cases h
    | ok l =>
      rintro ⟨⟩
      exact ⟨need_of_num ⟨_, rfl⟩, _, rfl⟩

private theorem whole_sensors (a : UInt8) (tl : Bytes) (m : Msg) (h : decode (0x31 :: 0x02 :: a :: tl) = .ok m) : Whole .sensors m := by
  rw [sensors_decode (a :: tl) (by simp)] at h
  revert h
  cases sensorLoop (8 * (a :: tl).length) (beNat (a :: tl)) 1 with
  | error e => intro h; cases h
  | ok l => rintro ⟨⟩; exact ⟨l, rfl⟩

/-- **C151.** What complete reports on the wire decode to is whole. -/
theorem C151_complete_partial (q : Query) (b : Bytes) (m : Msg) (hc : Complete q b) (h : decode b = .ok m) : Whole q m := by
  cases q with
  | version =>
    obtain ⟨p, rfl, hl⟩ := hc
    rcases p with _ | ⟨a, _ | ⟨b, _ | ⟨c, _ | ⟨d, _ | ⟨e, tl⟩⟩⟩⟩⟩ <;> first | (simp at hl; done) | exact whole_version _ _ _ _ _ _ _ h
  | manufacturer =>
    obtain ⟨p, rfl, hl⟩ := hc
    rcases p with _ | ⟨a, _ | ⟨b, _ | ⟨c, _ | ⟨d, _ | ⟨e, _ | ⟨f, tl⟩⟩⟩⟩⟩⟩ <;> first | (simp at hl; done) | exact whole_manufacturer _ _ _ _ _ _ _ _ h
  | plusInfo =>
    obtain ⟨p, rfl, hl⟩ := hc
    rcases p with _ | ⟨a, _ | ⟨b, _ | ⟨c, _ | ⟨d, _ | ⟨e, _ | ⟨f, _ | ⟨g, tl⟩⟩⟩⟩⟩⟩⟩ <;> first | (simp at hl; done) | exact whole_plusInfo _ _ _ _ _ _ _ _ _ h
  | sensors =>
    obtain ⟨p, rfl, hl⟩ := hc
    rcases p with _ | ⟨a, tl⟩ <;> first | (simp at hl; done) | exact whole_sensors _ _ _ h
  | scales t =>
    obtain ⟨p, rfl, hl⟩ := hc
    rcases p with _ | ⟨a, _ | ⟨b, tl⟩⟩ <;> first | (simp at hl; done) | exact whole_scales t _ _ _ _ h
  | groupings =>
    obtain ⟨p, rfl, hl⟩ := hc
    rcases p with _ | ⟨a, tl⟩ <;> first | (simp at hl; done) | exact whole_groupings _ _ _ h
  | group multi i =>
    obtain ⟨p, rfl, hl⟩ := hc
    cases multi <;> rcases p with _ | ⟨a, _ | ⟨b, _ | ⟨c, tl⟩⟩⟩ <;> first | (simp at hl; done) | exact whole_group i _ _ _ _ _ h | exact whole_multi i _ _ _ _ _ h

/-! ## The property -/

/-- **C151.** With complete reports, an interview of a command class raises nothing but what its requests and sends raise. -/
def C151_statement : Prop :=
  NeverRaises ClassRun.version ∧ NeverRaises ClassRun.manufacturer ∧ NeverRaises ClassRun.plusInfo ∧ NeverRaises ClassRun.sensor ∧ ∀ supp, NeverRaises (ClassRun.association supp)

/-- Two interviews of Association: the second one is told of two groups while the first asks for the only group it knows. -/
def moreGroups : List (Op (Dict Int Classes.Assoc.Group)) :=
  [.interview, .versionAnswer 0 (.ok 2), .interview, .answer 0 (decode [0x85, 0x06, 0x01]), .answer 1 (decode [0x85, 0x06, 0x02]), .answer 0 (decode [0x85, 0x03, 0x01, 0x05, 0x00])]

private def wholeB : Item → Bool
  | .asked .groupings (some (.ok m)) => match needNum m "supportedGroupings" with | .ok _ => true | .error _ => false
  | .asked (.group _ _) (some (.ok m)) =>
    match needNum m "maxNodesSupported", getAttr registry m "nodes" with
    | .ok _, some (.nodes _) => true
    | _, _ => false
  | _ => false

private theorem wholeB_whole {x : Item} (h : wholeB x = true) : WholeItem x := by
  unfold wholeB at h
  split at h
  · rename_i m
    split at h
    · rename_i v hv; exact ⟨v, hv⟩
    · cases h
  · rename_i multi g m
    split at h
    · rename_i v l hv hl; exact ⟨⟨v, hv⟩, l, hl⟩
    · cases h
  · cases h

theorem C151_violated : ¬ C151_statement := by
  rintro ⟨-, -, -, -, h⟩
  have key : ∀ x ∈ (run (ClassRun.association fun _ => false) (fresh 0x85 []) moreGroups).trace, wholeB x.item = true := by decide +kernel
  obtain ⟨x, hx, hb⟩ := h (fun _ => false) 0x85 [] moreGroups 0 .runtime (by simp [OnlyAsked, moreGroups]) (fun x hx => wholeB_whole (key x hx))
    ⟨⟨false, by decide +kernel⟩, by decide +kernel⟩
  have hx' : x ∈ (run (ClassRun.association fun _ => false) (fresh 0x85 []) moreGroups).trace.map (·.item) := by
    obtain ⟨y, hy, rfl⟩ := List.mem_map.1 hx
    exact List.mem_map_of_mem (List.mem_filter.1 hy).1
  obtain ⟨y, hy, rfl⟩ := List.mem_map.1 hx'
  have := key y hy
  unfold Blames at hb
  split at hb
  · rename_i q e hi; rw [hi] at this; cases q <;> cases this
  · rename_i q e hi; rw [hi] at this; cases this
  · exact hb

private theorem never {σ : Type} (c : Cls σ) (h : Innocent Any c.prog) : NeverRaises c := by
  rintro id a ops i e ho hw ⟨⟨b, hc⟩, hi⟩
  obtain ⟨s0, xs, h1, h2⟩ := ClassRun.raised_exec c id a ops (fun o h v f => (ho o h).1 v true f) i b _ hc hi
  have := h s0 xs e (fun _ _ => trivial) h1 (by
    rw [h2]
    intro x hx
    obtain ⟨y, hy, rfl⟩ := List.mem_map.1 hx
    exact hw y ((List.mem_filter.1 hy).1))
  rwa [h2] at this

/-- **C151**, the classes for which it holds, in every schedule of overlapping interviews. -/
theorem C151_partial : NeverRaises ClassRun.version ∧ NeverRaises ClassRun.manufacturer ∧ NeverRaises ClassRun.plusInfo ∧ NeverRaises ClassRun.sensor :=
  ⟨never _ (innocent_copying _ _ fun _ h => h), never _ (innocent_copying _ _ fun _ h => h), never _ (innocent_copying _ _ fun _ h => h), never _ innocent_sensor⟩

/-- **C151**, Association: it holds if nobody adds or removes groups while the interview runs. -/
theorem C151_association_partial (supp : Nat → Bool) : Innocent SameGroups (Body.association supp) := innocent_association supp

/-- Complete reports, and a report that is too short. -/
example : Innocent Any Body.manufacturer ∧ (exec Body.manufacturer [] [⟨id, decode [0x72, 0x05, 0, 4], .ok true⟩]).result = some (.error .type) := ⟨innocent_copying _ _ fun _ h => h, by decide +kernel⟩

end Props.Innocent
