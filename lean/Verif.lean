import Verif.Props.Lexical
import Verif.Props.Objects
import Verif.Props.Peek
import Verif.Props.Termination
import Verif.Props.Filters
import Verif.Props.FilterCases
import Verif.Props.Ints
import Verif.Props.Xref
import Verif.Props.XrefTable
import Verif.Props.XrefStream
import Verif.Props.XrefShort
import Verif.Props.Opening
import Verif.Props.Containers
import Verif.Props.Notify
import Verif.Props.Equality
import Verif.Props.Hash
import Verif.Props.Clone
import Verif.Props.Writer
import Verif.Props.Incremental
import Verif.Props.ObjectStream
import Verif.Props.LoadOrder
import Verif.Props.SaveStreams
import Verif.Props.Optimize
import Verif.Props.Dedupe
import Verif.Props.Passwords
import Verif.Props.PasswordCases
import Verif.Props.Encryption
import Verif.Props.EncryptionSettings
import Verif.Props.PageTree
import Verif.Props.CharMap
import Verif.Props.RefCount
import Verif.Props.Stream
import Verif.Props.Date
import Verif.Props.Content
import Verif.Props.NameTree
import Verif.Props.CopyObjects
import Verif.Props.Signing
import Verif.Props.CharMapParser
import Verif.Props.Destinations
import Verif.Props.Recovery
import Verif.Props.StreamSave
import Verif.Props.RemoveEncryption
import Verif.Props.Zlib
import Verif.Props.Iterators
import Verif.Props.Names
import Verif.Props.Locks
import Verif.Props.LoadEnds
import Verif.Props.LastError
import Verif.Props.References
import Verif.Props.DocumentInfo
import Verif.Props.Registry
import Verif.Props.Annotations
import Verif.Props.ViewSettings
import Verif.Props.Outline
import Verif.Props.NumberObjects
import Verif.Props.PageBox
import Verif.Props.FileStart
import Verif.Props.FormFields
import Verif.Props.PageFonts
import Verif.Props.License
import Verif.Props.Images
import Verif.Props.Attributes
import Verif.Props.Recipients
import Verif.Props.SigningKeys
import Verif.Props.Watermark
import Verif.Props.Hybrid
import Verif.Props.Observers
import Verif.Props.NewDocument
import Verif.Props.SecureSave
import Verif.Props.SecureCopy
import Verif.Props.SignForm
import Verif.Props.OptimizedSave
import Verif.Props.StreamObject
import Verif.Props.UnlistedStreams
import Verif.Props.Interface
import Verif.Props.StringObject
import Verif.Props.Logging
import Verif.Props.LoggingThreads
import Verif.Props.StreamHistory
import Verif.Props.FileStreams
import Verif.Props.PeekTokens
import Verif.Props.PageDamage
import Verif.Props.SigningFile
import Verif.Props.Buffers
import Verif.Props.Misnumbered
import Verif.Props.OperatorKinds
import Verif.Props.LostLength
