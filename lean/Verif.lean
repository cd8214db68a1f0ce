import Verif.Sha.Model
import Verif.Sha.Spec
import Verif.Sha.Lemmas
import Verif.Sha.Stream
import Verif.Sha.Digest
import Verif.Sha.Props
import Verif.Str.Model
import Verif.Str.Lemmas
import Verif.Str.Props
import Verif.Uuid.Model
import Verif.Uuid.Props
import Verif.Unicode.Model
import Verif.Unicode.Spec
import Verif.Unicode.Props
import Verif.Text.Model
import Verif.Text.Props
import Verif.Dmx.Float
import Verif.Dmx.Model
import Verif.Dmx.Props
import Verif.Enum.Model
import Verif.Enum.Props
import Verif.Real.Model
import Verif.Real.Props
import Verif.Mtx.Model
import Verif.Mtx.Spec
import Verif.Mtx.Props
import Verif.Color.Model
import Verif.Color.Props
import Verif.Xchg.Buffer
import Verif.Xchg.BufferProps
import Verif.Xchg.Message
import Verif.Xchg.MessageProps
import Verif.Xchg.JsonText
import Verif.Xchg.JsonSpec
import Verif.Xchg.JsonUtf8
import Verif.Xchg.JsonLemmas
import Verif.Xchg.JsonStore
import Verif.Xchg.JsonStrict
import Verif.Xchg.JsonMessage
import Verif.Xchg.JsonProps
import Verif.Xchg.Session
import Verif.Xchg.SessionLemmas
import Verif.Xchg.SessionProps
import Verif.Xchg.Service
import Verif.Xchg.ServiceProps
import Verif.Xchg.TxtProps
import Verif.Name.Model
import Verif.Name.Props
import Verif.Zip.Model
import Verif.Zip.Spec
import Verif.Zip.Lemmas
import Verif.Zip.Archive
import Verif.Zip.Steps
import Verif.Zip.Remove
import Verif.Zip.Props
import Verif.Chan.Model
import Verif.Chan.Spec
import Verif.Chan.ReadProps
import Verif.Chan.WriteProps
import Verif.Geo.Model
import Verif.Geo.Spec
import Verif.Geo.Lemmas
import Verif.Geo.BreakProps
import Verif.Geo.FootprintProps
import Verif.Lookup.Model
import Verif.Lookup.Spec
import Verif.Lookup.Lemmas
import Verif.Lookup.Props
import Verif.Lookup.DupProps
import Verif.Lookup.RefModel
import Verif.Lookup.RefProps
import Verif.Check.Model
import Verif.Check.Spec
import Verif.Check.AttrProps
import Verif.Check.MasterProps
import Verif.Node.Model
import Verif.Node.Table
import Verif.Node.Spec
import Verif.Node.Props
import Verif.Path.Model
import Verif.Path.Spec
import Verif.Path.Lemmas
import Verif.Path.Props
import Verif.Scene.Model
import Verif.Scene.Spec
import Verif.Scene.Lemmas
import Verif.Scene.Props
import Verif.Scene.Links
import Verif.Scene.Symbols
import Verif.Str.Utf16
import Verif.Text.Forms
import Verif.Color.Primaries
import Verif.Xml.Model
import Verif.Xml.Spec
import Verif.Xml.Lemmas
import Verif.Xml.Round
import Verif.Xml.Print
import Verif.Xml.Doc
import Verif.Xml.Cut
import Verif.Xml.Sound
import Verif.Xml.Decode
import Verif.Xml.Tree
import Verif.Xml.Props
import Verif.Api.Model
import Verif.Api.Spec
import Verif.Api.Props
import Verif.Api.Fields
import Verif.Api.FieldsSpec
import Verif.Api.FieldsProps
import Verif.Gdtf.Model
import Verif.Gdtf.Table
import Verif.Gdtf.Spec
import Verif.Gdtf.Props
import Verif.Gdtf.ValueModel
import Verif.Gdtf.ValueSpec
import Verif.Gdtf.ValueLemmas
import Verif.Gdtf.ValueProps
import Verif.Gdtf.ValueMore
import Verif.Gdtf.FileModel
import Verif.Gdtf.FileSpec
import Verif.Gdtf.FileLemmas
import Verif.Gdtf.FileText
import Verif.Gdtf.FileProps
import Verif.Gdtf.FormatSpec
import Verif.Gdtf.FormatLemmas
import Verif.Gdtf.FormatProps
import Verif.Gdtf.CtorModel
import Verif.Gdtf.AbsentSpec
import Verif.Gdtf.AbsentLemmas
import Verif.Gdtf.AbsentProps
import Verif.Mvr.Model
import Verif.Mvr.Table
import Verif.Mvr.Spec
import Verif.Mvr.Values
import Verif.Mvr.Lemmas
import Verif.Mvr.Props
import Verif.Mvr.File
import Verif.Mvr.Inner
import Verif.Mvr.Kinds
import Verif.Mvr.SceneProps
import Verif.Mvr.Checks
import Verif.Mvr.ForeignSpec
import Verif.Mvr.ForeignLemmas
import Verif.Mvr.ForeignProps
import Verif.Mvr.AbsentSpec
import Verif.Mvr.AbsentProps
import Verif.Mvr.FormatProps
import Verif.Mvr.SaveProps
import Verif.Mvr.SpellProps
import Verif.Mvr.StableSpec
import Verif.Mvr.StableProps
import Verif.Gdtf.SpellProps
import Verif.Gdtf.SaveSpec
import Verif.Gdtf.SaveModel
import Verif.Gdtf.SaveLemmas
import Verif.Gdtf.SaveValues
import Verif.Gdtf.SaveTree
import Verif.Gdtf.SaveProps
import Verif.Gdtf.StableSpec
import Verif.Gdtf.StableProps
import Verif.Mdns.Model
import Verif.Mdns.Collect
import Verif.Mdns.Spec
import Verif.Mdns.Lemmas
import Verif.Mdns.Records
import Verif.Mdns.Write
import Verif.Mdns.Answer
import Verif.Mdns.Found
import Verif.Mdns.Ask
import Verif.Mdns.Search
import Verif.Mdns.Discover
import Verif.Mdns.Props
import Verif.Link.Model
import Verif.Link.Spec
import Verif.Link.Lemmas
import Verif.Link.Modes
import Verif.Link.Back
import Verif.Link.Props
import Verif.Link.Reports
import Verif.Link.Reported
import Verif.Link.Total
import Verif.Link.Nulls
import Verif.Link.Masters
import Verif.Link.Created
import Verif.Link.Demo
import Verif.Link.Violated
import Verif.Sched.Model
import Verif.Sched.Spec
import Verif.Sched.Lemmas
import Verif.Sched.Progress
import Verif.Sched.Props
import Verif.Sched.Data
import Verif.Sched.Timer
import Verif.Disk.Model
import Verif.Disk.Spec
import Verif.Disk.Lemmas
import Verif.Disk.Cut
import Verif.Disk.Props
import Verif.Disk.History
import Verif.Sched.Silent
import Verif.Pack.Props
import Verif.Pack.GdtfProps
import Verif.Master.Model
import Verif.Master.Spec
import Verif.Master.Props
import Verif.Attr.Model
import Verif.Attr.Spec
import Verif.Attr.Props
import Verif.Loan.Model
import Verif.Loan.Spec
import Verif.Loan.Props
import Verif.Abort.Model
import Verif.Abort.Spec
import Verif.Abort.Lemmas
import Verif.Abort.Props
import Verif.Geo.AskModel
import Verif.Geo.AskProps
