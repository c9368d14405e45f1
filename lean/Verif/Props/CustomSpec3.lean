import Verif.Props.CustomSpec2

/-! # C93: findings and examples -/

namespace HB.Custom

open Spec.Custom

/-- A brick with one process. -/
def oneBrick (fields process : List (String × Val)) : List (String × Val) :=
  [("bricks", .dict [("store", .dict (fields ++ [("processes", .dict [("p", .dict process)])]))])]

/-- A sublimation without a target passes the validation, which knows it needs none, and is then refused by the generator. -/
theorem c93_sublimation : StructureOk (oneBrick [("kind", .str "storage")] [("kind", .str "sublimation:constant")]) ∧
    customModel (oneBrick [("kind", .str "storage")] [("kind", .str "sublimation:constant")]) [] ["open"] = .error (.noTarget "store" "p") := by
  have hv : validate (oneBrick [("kind", .str "storage")] [("kind", .str "sublimation:constant")]) = [] := by decide +kernel
  exact ⟨(c93_accepts _).mp hv, rfl⟩

/-- An empty list of targets is accepted for any process: it has no outlet. -/
theorem c93_no_targets : StructureOk (oneBrick [("kind", .str "storage")] [("kind", .str "outflow:linear"), ("targets", .list [])]) ∧
    ∃ o, customModel (oneBrick [("kind", .str "storage")] [("kind", .str "outflow:linear"), ("targets", .list [])]) [] ["open"] =
      .ok (o, [⟨"store", .unit, "storage", false, [⟨"p", "outflow:linear", [], false⟩]⟩]) := by
  have hv : validate (oneBrick [("kind", .str "storage")] [("kind", .str "outflow:linear"), ("targets", .list [])]) = [] := by decide +kernel
  exact ⟨(c93_accepts _).mp hv, _, rfl⟩

/-- The place of a land cover is not checked, and ignored. -/
theorem c93_cover_place : StructureOk [("bricks", .dict [("open", .dict [("kind", .str "land_cover"), ("attach_to", .str "outlet")])])] ∧
    ∃ o, customModel [("bricks", .dict [("open", .dict [("kind", .str "land_cover"), ("attach_to", .str "outlet")])])] [] ["open"] =
      .ok (o, [⟨"open", .cover, "land_cover", false, []⟩]) := by
  have hv : validate [("bricks", .dict [("open", .dict [("kind", .str "land_cover"), ("attach_to", .str "outlet")])])] = [] := by decide +kernel
  exact ⟨(c93_accepts _).mp hv, _, rfl⟩

/-- A target no brick has is accepted. -/
theorem c93_unknown_target : StructureOk (oneBrick [("kind", .str "storage")] [("kind", .str "outflow:linear"), ("target", .str "nowhere")]) := by
  have hv : validate (oneBrick [("kind", .str "storage")] [("kind", .str "outflow:linear"), ("target", .str "nowhere")]) = [] := by decide +kernel
  exact (c93_accepts _).mp hv

/-- Two land covers and a reservoir of the sub-basin; the melt of the option is not the default. -/
def example1 : List (String × Val) :=
  [("name", .str "two_stores"),
   ("options", .dict [("snow_melt_process", .str "melt:temperature_index"), ("rain_to_snowpack", .bool true)]),
   ("bricks", .dict [
     ("open", .dict [("kind", .str "land_cover"), ("processes", .dict [
       ("infiltration", .dict [("kind", .str "infiltration:socont"), ("target", .str "soil")]),
       ("runoff", .dict [("kind", .str "outflow:rest"), ("targets", .list [.str "soil", .str "slow"]), ("instantaneous", .bool true)])])]),
     ("soil", .dict [("kind", .str "storage"), ("parameters", .dict [("capacity", .num 200)]), ("processes", .dict [
       ("et", .dict [("kind", .str "et:socont")]), ("outflow", .dict [("kind", .str "outflow:linear"), ("target", .str "slow"), ("log", .bool true)])])]),
     ("slow", .dict [("kind", .str "storage"), ("attach_to", .str "sub_basin"), ("processes", .dict [
       ("outflow", .dict [("kind", .str "outflow:linear"), ("target", .str "outlet")])])])]),
   ("aliases", .dict [("slow:response_factor", .str "k_slow"), ("soil:response_factor", .list [.str "k_quick", .str "kq"])]),
   ("constraints", .list [.list [.str "k_slow", .str "<", .str "k_quick"]])]

theorem c93_example : StructureOk example1 ∧ ∃ o, options example1 [("snow_melt_process", .str "melt:degree_day"), ("solver", .str "euler")] = .ok o ∧
    Field o "snow_melt_process" (.str "melt:degree_day") ∧ Field o "rain_to_snowpack" (.bool true) ∧ Field o "with_snow" (.bool true) ∧
    customModel example1 [("snow_melt_process", .str "melt:degree_day"), ("solver", .str "euler")] ["open", "glacier"] =
      .ok (o, [⟨"open", .cover, "land_cover", false, [⟨"infiltration", "infiltration:socont", ["soil"], false⟩, ⟨"runoff", "outflow:rest", ["soil", "slow"], true⟩]⟩,
        ⟨"soil", .unit, "storage", false, [⟨"et", "et:socont", [], false⟩, ⟨"outflow", "outflow:linear", ["slow"], false⟩]⟩,
        ⟨"slow", .basin, "storage", false, [⟨"outflow", "outflow:linear", ["outlet"], false⟩]⟩]) := by
  have hv : validate example1 = [] := by decide +kernel
  exact ⟨(c93_accepts _).mp hv, _, rfl, rfl, rfl, rfl, rfl⟩

/-- Four mistakes, four messages. -/
theorem c93_example_wrong :
    validate [("brick", .null), ("bricks", .dict [
      ("a", .dict [("kind", .str "storage"), ("atach_to", .str "sub_basin"), ("processes", .dict [
        ("q", .dict [("kind", .str "outflow:linear")]), ("r", .dict [("kind", .str "outflow:linear"), ("target", .str "outlet")])])]),
      ("b", .list [])])] =
    [⟨["structure"], .unknownKey "brick"⟩, ⟨["structure", "bricks", "a"], .unknownKey "atach_to"⟩, ⟨["structure", "bricks", "a", "processes", "q"], .noTarget⟩,
     ⟨["structure", "bricks", "b"], .notMapping⟩] := by decide +kernel

end HB.Custom
