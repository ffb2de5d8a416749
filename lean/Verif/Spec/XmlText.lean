import Verif.Model.Xml
/-!
# XML characters

The characters an XML 1.0 document can contain, and what becomes of a text that has others.
-/
namespace Verif.Xml

/-- `Char` of XML 1.0, section 2.2. -/
def IsXmlChar (c : Char) : Prop :=
  c.toNat = 0x9 ∨ c.toNat = 0xA ∨ c.toNat = 0xD ∨ (0x20 ≤ c.toNat ∧ c.toNat ≤ 0xD7FF) ∨
  (0xE000 ≤ c.toNat ∧ c.toNat ≤ 0xFFFD) ∨ (0x10000 ≤ c.toNat ∧ c.toNat ≤ 0x10FFFF)

instance (c : Char) : Decidable (IsXmlChar c) := inferInstanceAs (Decidable (_ ∨ _))

/-- A character, or the replacement character if XML does not have it. -/
def cleanChar (c : Char) : Char := if IsXmlChar c then c else '\uFFFD'

/-- A text with the characters XML does not have replaced. -/
def cleanText (s : Text) : Text := s.map cleanChar

mutual
/-- A tree with its character data and attribute values so changed. -/
def cleanNode : XNode → XNode
  | .text s => .text (cleanText s)
  | .elem n as ks => .elem n (as.map fun a => (a.1, cleanText a.2)) (cleanNodes ks)
/-- The same for siblings. -/
def cleanNodes : List XNode → List XNode
  | [] => []
  | k :: ks => cleanNode k :: cleanNodes ks
end

end Verif.Xml
