/-
Model of facets_pack (include/strf/facets_pack.hpp): how the facet of a category is looked up for a tag, and of the places
where packs are put together (include/strf/printing_syntax.hpp, include/strf/detail/reserve_policies.hpp,
include/strf/detail/printable_types/facets_pack.hpp, include/strf/detail/printing_helpers.hpp).

In the code the lookup is overload resolution; categories and tags are types. Here they are the elements of two types `C` and
`T`, and a facet is a value of `V`. Overload resolution is modelled: the viable functions are listed with the rank of their
first parameter, and the one whose rank is the closest base of the rank given is taken.
-/
namespace Strf.Facets
variable {C T V : Type} [DecidableEq C]

/-- facets_pack.hpp 179–272: an element of a facets pack: a facet of a category; `constrained_fpe<Filter, FPE>` (657–706); `const FPE&`;
`facets_pack<FPE...>` -/
inductive Fpe (C T V : Type) where
  | facet (cat : C) (v : V)
  | constrained (filter : T → Bool) (e : Fpe C T V)
  | ref (e : Fpe C T V)
  | pack (es : List (Fpe C T V))

mutual
/-- fpe_traits<FPE>::has_facet<Cat, Tag>: 255–262 (facet: the tag is ignored), 231–235 (constrained), 208–212 (reference),
177–181 (pack: fold_or) -/
def Fpe.has (cat : C) (tag : T) : Fpe C T V → Bool
  | .facet c _ => decide (cat = c)
  | .constrained f e => f tag && e.has cat tag
  | .ref e => e.has cat tag
  | .pack es => hasAny cat tag es
/-- strf_def.hpp 197–230: fold_or -/
def hasAny (cat : C) (tag : T) : List (Fpe C T V) → Bool
  | [] => false
  | e :: es => e.has cat tag || hasAny cat tag es
end

/-- Overload resolution between the viable functions: the argument has type rank<N> and rank<i> derives from rank<i-1>
(include/strf/detail/strf_def.hpp 309–326), so the conversion to the greater rank is the better one. -/
def better (a b : Nat × V) : Nat × V := if a.1 < b.1 then b else a

/-- facets_pack.hpp 274–500: the best viable function, if there is one -/
def best : List (Nat × V) → Option (Nat × V)
  | [] => none
  | x :: xs => match best xs with
    | none => some x
    | some y => some (better x y)

mutual
/-- do_get_facet<Cat, Tag>(elm), 166–173: 264–268 (facet), 237–246 (constrained), 214–220 (reference), 183–190 and 779–808
(pack: get_facet, with the default of the category if no element has the facet: 748–755) -/
def Fpe.get (dflt : C → V) (cat : C) (tag : T) : Fpe C T V → V
  | .facet _ v => v
  | .constrained _ e => e.get dflt cat tag
  | .ref e => e.get dflt cat tag
  | .pack es => ((best (viable dflt cat tag 0 es)).map Prod.snd).getD (dflt cat)
/-- the functions do_get_facet of the wrappers of the elements (276–504) that are viable: that of element `i` has rank `i`
(573–586), and is viable if the category of the facet is the one asked for (302–309), or if has_facet is true, because
the third argument is true_type (366–375, 410–421, 472–481) -/
def viable (dflt : C → V) (cat : C) (tag : T) (i : Nat) : List (Fpe C T V) → List (Nat × V)
  | [] => []
  | e :: es =>
    if e.has cat tag then (i, e.get dflt cat tag) :: viable dflt cat tag (i + 1) es
    else viable dflt cat tag (i + 1) es
end

/-- strf::get_facet<Category, Tag>(fp), 879–909 -/
def getFacet (dflt : C → V) (cat : C) (tag : T) (es : List (Fpe C T V)) : V := (Fpe.pack es).get dflt cat tag

/-- facets_pack.hpp 833–871 the constructors with merge_1st: the elements of the first pack (get_element<I>()...), then the others; used by
`with` (printing_syntax.hpp 351–405) -/
def merge (fp others : List (Fpe C T V)) : List (Fpe C T V) := fp ++ others

/-- printing_syntax.hpp: the syntax object after `.with(a...)` any number of times -/
def withAll (fp : List (Fpe C T V)) (calls : List (List (Fpe C T V))) : List (Fpe C T V) := calls.foldl merge fp

/-- printing_syntax.hpp operator(): the stored pack is passed before the arguments; separate_args_and_print.hpp 41–86: the
arguments that are facets come first; reserve_policies.hpp 112, 139, 198, 281, 330: they are packed -/
def callFacets (stored argFacets : List (Fpe C T V)) : List (Fpe C T V) := .pack stored :: argFacets

/-- printable_types/facets_pack.hpp 48–68: the arguments of strf::with(f...)(args...) are printed with the facets
`strf::pack(parentFacets, x.fp)` -/
def childFacets (parent child : List (Fpe C T V)) : List (Fpe C T V) := [.pack parent, .pack child]

/-- printing_helpers.hpp 112–184: what prints an argument: its own definition, or the facet of the category
printable_overrider_c<representative> if the type is overridable and the facet is not dont_override -/
def printedBy {R : Type} (overriderCat : R → C) (tagOf : R → T) (isDontOverride : V → Bool) (dflt : C → V)
    (overridable : Bool) (rep : R) (fp : List (Fpe C T V)) : Option V :=
  if overridable then
    if isDontOverride (getFacet dflt (overriderCat rep) (tagOf rep) fp) then none
    else some (getFacet dflt (overriderCat rep) (tagOf rep) fp)
  else none

end Strf.Facets
