import Verif.Spec.Json
import Verif.Model.History

/-!
# What a client of the server sees
-/

namespace Gse.Spec

open Gse

/-- The text of a request to `/json`: the parameter `text` of the query; if that is missing or empty, the one of the form. -/
def Asks (query form : List (Bytes × Bytes)) (text : Bytes) : Prop :=
  (text ≠ [] ∧ query.lookup (str "text") = some text) ∨
  ((query.lookup (str "text") = none ∨ query.lookup (str "text") = some []) ∧
    (form.lookup (str "text") = some text ∨ (form.lookup (str "text") = none ∧ text = [])))

/-- The parameter of a query, empty when missing. -/
def HasParam (query : List (Bytes × Bytes)) (k v : Bytes) : Prop := query.lookup k = some v ∨ (query.lookup k = none ∧ v = [])

/-- A field of an object. -/
def field : JObj → Bytes → Option JVal
  | .nil, _ => none
  | .cons k v l, n => if k = n then some v else field l n

/-- The elements of an array. -/
def elems : JArr → List JVal
  | .nil => []
  | .cons v l => v :: elems l

/-- All of a list, if none fails. -/
def allOf {α β : Type} (f : α → Option β) : List α → Option (List β)
  | [] => some []
  | a :: l => (f a).bind fun b => (allOf f l).map (b :: ·)

/-- Text and tag of a segment. -/
def answerSeg : JVal → Option (Bytes × Bytes)
  | .obj l =>
    match field l (str "text"), field l (str "pos") with
    | some (.text t), some (.text p) => some (t, p)
    | _, _ => none
  | _ => none

/-- The segments of an answer without error. -/
def answerSegs : JVal → Option (List (Bytes × Bytes))
  | .obj l =>
    match field l (str "segments"), field l (str "err") with
    | some (.arr a), some .null => allOf answerSeg (elems a)
    | _, _ => none
  | _ => none

/-- A string. -/
def answerText : JVal → Option Bytes
  | .text t => some t
  | _ => none

/-- The words of an answer. -/
def answerWords : JVal → Option (List Bytes)
  | .obj l =>
    match field l (str "Seg") with
    | some (.arr a) => allOf answerText (elems a)
    | _ => none
  | _ => none

variable {F : Type} [F64 F]

/-- What a request does to the dictionary. -/
def reqOps : ServerReq → List (DictOp F)
  | .add q => [.addForce ((q.lookup (str "text")).getD []) (F64.parse ((q.lookup (str "freq")).getD []) : F × Bool).1 ((q.lookup (str "pos")).getD [])]
  | .json _ _ => []

end Gse.Spec
