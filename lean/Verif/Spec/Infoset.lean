import Verif.Spec.XmlDoc
/-!
# What an XML document says

"Namespaces in XML 1.0": the information in a tree, independent of the prefixes and of the way character data is cut up by
comments, CDATA sections and elements.
-/
namespace Verif.Xml

/-- An element: its name (name space and local name), its attributes (without name space declarations), its character data and its
child elements. -/
inductive Info where
  | elem (name : XName) (attrs : List (XName × Text)) (data : Text) (kids : List Info)

/-- Name. -/
def Info.name : Info → XName
  | .elem n _ _ _ => n
/-- Attributes. -/
def Info.attrs : Info → List (XName × Text)
  | .elem _ a _ _ => a
/-- Character data directly in the element. -/
def Info.data : Info → Text
  | .elem _ _ d _ => d
/-- Child elements. -/
def Info.kids : Info → List Info
  | .elem _ _ _ k => k

/-- The name spaces in force: of a prefix, or (for the empty prefix) the default. -/
abbrev Scope := Text → Option Text

/-- The attribute that declares the name space of a prefix (section 3). -/
def declName (p : Text) : Text := if p = [] then "xmlns".toList else "xmlns:".toList ++ p

/-- The name spaces in force inside an element with these attributes. -/
def Scope.within (σ : Scope) (as : List (Text × Text)) : Scope := fun p =>
  ((as.filter fun a => a.1 = declName p).getLast?.map (·.2)).or (σ p)

/-- The name of an element (section 5, 6): without a prefix it is in the default name space. -/
inductive ElemName (σ : Scope) : Text → XName → Prop where
  | default {l} : NCName l → l ≠ "xmlns".toList → ElemName σ l ⟨(σ []).getD [], l⟩
  | prefixed {p l u} : NCName p → NCName l → p ≠ "xml".toList → p ≠ "xmlns".toList → σ p = some u → ElemName σ (p ++ ':' :: l) ⟨u, l⟩
  | xml {l} : NCName l → ElemName σ ("xml:".toList ++ l) ⟨"http://www.w3.org/XML/1998/namespace".toList, l⟩

/-- The name of an attribute: without a prefix it is in no name space. -/
inductive AttrName (σ : Scope) : Text → XName → Prop where
  | default {l} : NCName l → l ≠ "xmlns".toList → AttrName σ l ⟨[], l⟩
  | prefixed {p l u} : NCName p → NCName l → p ≠ "xml".toList → p ≠ "xmlns".toList → σ p = some u → AttrName σ (p ++ ':' :: l) ⟨u, l⟩
  | xml {l} : NCName l → AttrName σ ("xml:".toList ++ l) ⟨"http://www.w3.org/XML/1998/namespace".toList, l⟩

/-- The attributes that are not declarations. -/
inductive AttrsSay (σ : Scope) : List (Text × Text) → List (XName × Text) → Prop where
  | nil : AttrsSay σ [] []
  | decl {p v as bs} : p = [] ∨ NCName p → AttrsSay σ as bs → AttrsSay σ ((declName p, v) :: as) bs
  | attr {n m v as bs} : AttrName σ n m → AttrsSay σ as bs → AttrsSay σ ((n, v) :: as) ((m, v) :: bs)

mutual
/-- What an element says. -/
inductive Says : Scope → XNode → Info → Prop where
  | elem {σ : Scope} {n as ks m bs d is} : ElemName (σ.within as) n m → AttrsSay (σ.within as) as bs → KidsSay (σ.within as) ks d is →
      Says σ (.elem n as ks) (.elem m bs d is)
/-- What the content of an element says: its character data and its child elements. -/
inductive KidsSay : Scope → List XNode → Text → List Info → Prop where
  | nil {σ} : KidsSay σ [] [] []
  | text {σ s ks d is} : KidsSay σ ks d is → KidsSay σ (.text s :: ks) (s ++ d) is
  | elem {σ k i ks d is} : Says σ k i → KidsSay σ ks d is → KidsSay σ (k :: ks) d (i :: is)
end

mutual
/-- The prefixes declared somewhere in a tree. -/
def prefixes : XNode → List Text
  | .text _ => []
  | .elem _ as ks => (as.filter fun a => "xmlns:".toList.isPrefixOf a.1).map (fun a => a.1.drop 6) ++ prefixesAll ks
/-- The same for siblings. -/
def prefixesAll : List XNode → List Text
  | [] => []
  | k :: ks => prefixes k ++ prefixesAll ks
end

/-- The text is a document that says this. -/
def SaysDoc (t : Text) (i : Info) : Prop := ∃ x, Document t x ∧ Says (fun _ => none) x i

end Verif.Xml
