import Verif.Lemmas.Ident
import Verif.Lemmas.Uuid
import Verif.Props.Ident
import Verif.Lemmas.Collection
import Verif.Props.Collection
import Verif.Props.Enum
import Verif.Props.Time
import Verif.Props.Base64
import Verif.Props.Canon
import Verif.Props.Option
import Verif.Props.Ctor
import Verif.Props.ObsId
import Verif.Props.Rel
import Verif.Props.StdRel
import Verif.Props.Says
import Verif.Props.Stable
import Verif.Props.DataTypes
import Verif.Props.Parse
import Verif.Props.ParseMany
import Verif.Props.AllOrNothing
import Verif.Props.NoPanic
import Verif.Props.Custom
import Verif.Spec.Marshal
import Verif.Lemmas.Marshal
import Verif.Lemmas.Literal
import Verif.Lemmas.RoundTrip
import Verif.Props.Marshal
import Verif.Lemmas.ObjTrip
import Verif.Props.RoundTrip
import Verif.Lemmas.Bundle
import Verif.Props.Bundle
import Verif.Model.Tlp
import Verif.Spec.Tlp
import Verif.Props.Tlp
import Verif.Spec.CtorMarshal
import Verif.Props.CtorMarshal
import Verif.Spec.ObsId
import Verif.Lemmas.ObsText
import Verif.Lemmas.ObsRead
import Verif.Props.ObsDistinct
import Verif.Model.Text
import Verif.Spec.Text
import Verif.Lemmas.Utf8
import Verif.Lemmas.TextStr
import Verif.Lemmas.TextParse
import Verif.Lemmas.TextPrint
import Verif.Lemmas.TextEnc
import Verif.Props.Text
import Verif.Spec.Stamp
import Verif.Lemmas.Stamp
import Verif.Props.Stamp
import Verif.Model.Accessor
import Verif.Spec.Accessor
import Verif.Props.Accessor
import Verif.Spec.Spelling
import Verif.Lemmas.Spelling
import Verif.Props.Spelling
import Verif.Gen.OptionDocs
import Verif.Spec.OptionDocs
import Verif.Props.OptionDocs
import Verif.Spec.Standard
import Verif.Lemmas.CanonSound
import Verif.Lemmas.Standard
import Verif.Props.Standard
import Verif.Gen.Enums
import Verif.Gen.ExtGetters
import Verif.Gen.Options
import Verif.Gen.Rels
import Verif.Gen.Structs
import Verif.Gen.TypeConsts
import Verif.Lemmas.AssocMap
import Verif.Lemmas.Canon
import Verif.Lemmas.CanonFuel
import Verif.Lemmas.CanonParse
import Verif.Lemmas.CanonSame
import Verif.Lemmas.CanonStr
import Verif.Lemmas.Codec
import Verif.Lemmas.Ctor
import Verif.Lemmas.CtorTyped
import Verif.Lemmas.Float
import Verif.Lemmas.Leaf
import Verif.Lemmas.Option
import Verif.Lemmas.Process
import Verif.Lemmas.Says
import Verif.Lemmas.SortedMap
import Verif.Lemmas.Stable
import Verif.Lemmas.Time
import Verif.Model.Base64
import Verif.Model.Basic
import Verif.Model.Canon
import Verif.Model.Codec
import Verif.Model.Collection
import Verif.Model.Ctor
import Verif.Model.Custom
import Verif.Model.DataTypes
import Verif.Model.Enum
import Verif.Model.Ident
import Verif.Model.Json
import Verif.Model.Marshal
import Verif.Model.Option
import Verif.Model.Process
import Verif.Model.Rel
import Verif.Model.SortedMap
import Verif.Model.Time
import Verif.Model.Types
import Verif.Props.Built
import Verif.Props.Needs
import Verif.Spec.Base64
import Verif.Spec.Built
import Verif.Spec.Rebuilt
import Verif.Lemmas.Rebuilt
import Verif.Props.Rebuilt
import Verif.Spec.CustomTrip
import Verif.Props.CustomTrip
import Verif.Spec.PassedOn
import Verif.Props.PassedOn
import Verif.Spec.Stored
import Verif.Props.Stored
import Verif.Spec.Canon
import Verif.Spec.Collection
import Verif.Spec.Ctor
import Verif.Spec.Custom
import Verif.Spec.Doc
import Verif.Spec.Enum
import Verif.Spec.Float
import Verif.Spec.Ident
import Verif.Spec.Needs
import Verif.Spec.Option
import Verif.Spec.Rel
import Verif.Spec.Says
import Verif.Spec.Time
import Verif.Spec.Value
import Verif.Spec.Limits
import Verif.Props.Limits
import Verif.Lemmas.Strconv
import Verif.Lemmas.Shortest
import Verif.Lemmas.StrconvText
import Verif.Lemmas.StrconvLaws
import Verif.Lemmas.Es6
import Verif.Lemmas.Es6Unique
import Verif.Lemmas.Es6Read
import Verif.Model.Strconv
import Verif.Spec.Es6
import Verif.Props.Numbers
import Verif.Model.Sha1
import Verif.Spec.StdId
import Verif.Lemmas.StdId
import Verif.Props.StdId
import Verif.Props.StdIdVectors
import Verif.Props.Parser
import Verif.Props.Reach
import Verif.Props.OwnOptions
import Verif.Model.Share
import Verif.Spec.Refill
import Verif.Lemmas.Refill
import Verif.Props.Share
import Verif.Props.AddCustom
import Verif.Model.Heap
import Verif.Spec.Heap
import Verif.Props.Heap
import Verif.Props.CanonExact
import Verif.Spec.Shape
import Verif.Props.Shape
import Verif.Spec.Fate
import Verif.Spec.Means
import Verif.Spec.Leftover
import Verif.Lemmas.Fate
import Verif.Lemmas.Means
import Verif.Lemmas.Meaning
import Verif.Props.Fate
import Verif.Props.Leftover
import Verif.Props.Means
import Verif.Props.Merge
import Verif.Model.Order
import Verif.Lemmas.Order
import Verif.Props.Order
import Verif.Spec.Sha1
import Verif.Lemmas.Sha1
import Verif.Model.Sched
import Verif.Spec.Sched
import Verif.Lemmas.Sched
import Verif.Props.Sched
import Verif.Model.Snapshot
import Verif.Spec.Snapshot
import Verif.Props.Snapshot
import Verif.Conform
import Verif.Spec.GoFloat
import Verif.Lemmas.GoFloat
import Verif.Lemmas.GoFloatRead
import Verif.Lemmas.GoFloatText
import Verif.Props.GoFloat
import Verif.Spec.Accept
import Verif.Lemmas.Accept
import Verif.Props.Accept
import Verif.Spec.Export
import Verif.Lemmas.Held
import Verif.Lemmas.HeldObj
import Verif.Props.Export
import Verif.Spec.Relay
import Verif.Lemmas.Relay
import Verif.Props.Relay
import Verif.Props.RelayExact
