import Verif.Model.Parser
import Verif.Spec.Complaints

/-
The messages of the parser are those of the specification.
-/
namespace DS

/-- the message of the parser for a complaint -/
def Complaint.msg : Complaint → Msg
  | .noElement => .element
  | .badField => .field
  | .noColon => .colon
  | .noFieldType => .fieldType
  | .badItem => .tupleItem
  | .noResult => .result
  | .noArguments => .someArgument
  | .badArgument => .argument
  | .notKeyword => .keyword
  | .noValue => .value
  | .badList => .listStart
  | .openList => .listNext
  | .mixedList k => .uniform k
  | .noDatashape => .invalid
  | .tooMuch => .more
  | .openDimension => .closing
  | .noEntry n s => .missing n s

theorem Complaint.msg_text (c : Complaint) : c.msg.text = c.text := by
  cases c with
  | mixedList k => simp [Complaint.msg, Complaint.text, Msg.text]
  | noEntry n s => simp [Complaint.msg, Complaint.text, Msg.text]
  | _ => rfl

theorem Msg.complaint (m : Msg) : ∃ c : Complaint, c.msg = m := by
  cases m with
  | element => exact ⟨.noElement, rfl⟩
  | field => exact ⟨.badField, rfl⟩
  | colon => exact ⟨.noColon, rfl⟩
  | fieldType => exact ⟨.noFieldType, rfl⟩
  | tupleItem => exact ⟨.badItem, rfl⟩
  | result => exact ⟨.noResult, rfl⟩
  | someArgument => exact ⟨.noArguments, rfl⟩
  | argument => exact ⟨.badArgument, rfl⟩
  | keyword => exact ⟨.notKeyword, rfl⟩
  | value => exact ⟨.noValue, rfl⟩
  | listStart => exact ⟨.badList, rfl⟩
  | listNext => exact ⟨.openList, rfl⟩
  | uniform k => exact ⟨.mixedList k, rfl⟩
  | invalid => exact ⟨.noDatashape, rfl⟩
  | more => exact ⟨.tooMuch, rfl⟩
  | closing => exact ⟨.openDimension, rfl⟩
  | missing n s => exact ⟨.noEntry n s, rfl⟩

end DS
