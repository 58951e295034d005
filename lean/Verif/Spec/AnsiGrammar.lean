import Verif.Spec.Ansi
import Verif.Spec.ClusterGrammar
import Verif.Spec.GraphemeClasses
import Verif.Spec.Pieces
import Verif.Spec.Repair
import Verif.Spec.Text
/-! # Specification: escape sequences and grapheme clusters -/
namespace Uax29.Spec

/-- `ts` is `s`, divided from left to right: where the rest begins with a 7-bit escape sequence, the part is this sequence, and else it
is the longest match of the regular expression for grapheme clusters. -/
inductive EscapesAndClusters : List Char → List (List Char) → Prop
  | nil : EscapesAndClusters [] []
  | escape {e rest : List Char} {ts : List (List Char)} (he : Escape7 (utf8 e) (utf8 rest)) (hrest : EscapesAndClusters rest ts) :
      EscapesAndClusters (e ++ rest) (e :: ts)
  | cluster {t rest : List Char} {ts : List (List Char)} (hno : ∀ e v : Bytes, utf8 (t ++ rest) = e ++ v → ¬ Escape7 e v)
      (ht : Cluster graphemeClasses t) (hne : t ≠ []) (hmax : ∀ u, Cluster graphemeClasses u → u <+: t ++ rest → u <+: t)
      (hrest : EscapesAndClusters rest ts) : EscapesAndClusters (t ++ rest) (t :: ts)

/-- `t` is the longest match of the regular expression at the start of the bytes `d`, with U+FFFD for every ill-formed piece. An encoding
that is cut off at the end of `d` belongs to the last match. -/
inductive FirstCluster : Bytes → Bytes → Prop
  | cut {d : Bytes} (hd : d ≠ []) (hp : Pieces d [] d) : FirstCluster d d
  | pieces {d : Bytes} {g q : List Piece} {tail : Bytes} (hp : Pieces d (g ++ q) tail) (hne : g ≠ [])
      (hg : Cluster graphemeClasses (g.map Piece.repaired))
      (hmax : ∀ u, Cluster graphemeClasses u → u <+: (g ++ q).map Piece.repaired → u <+: g.map Piece.repaired) :
      FirstCluster d (g.flatMap Piece.bytes ++ if q = [] then tail else [])

/-- `ts` is `d`, divided from left to right: where the rest begins with an escape sequence of an enabled kind, the part is this sequence,
and else it is the longest match of the regular expression. -/
inductive EscapesAndClustersIn (seven eight : Bool) : Bytes → List Bytes → Prop
  | nil : EscapesAndClustersIn seven eight [] []
  | escape {e rest : Bytes} {ts : List Bytes} (he : seven = true ∧ Escape7 e rest ∨ eight = true ∧ Escape8 e rest)
      (hrest : EscapesAndClustersIn seven eight rest ts) : EscapesAndClustersIn seven eight (e ++ rest) (e :: ts)
  | cluster {t rest : Bytes} {ts : List Bytes} (hno : ¬ beginsEscape seven eight (t ++ rest)) (ht : FirstCluster (t ++ rest) t)
      (hrest : EscapesAndClustersIn seven eight rest ts) : EscapesAndClustersIn seven eight (t ++ rest) (t :: ts)

end Uax29.Spec
