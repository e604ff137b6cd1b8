import Verif.Props.Filters
import Verif.Props.Writer
import Verif.Props.XRefStream
import Verif.Props.Strings
import Verif.Props.Incremental
import Verif.Props.Document
import Verif.Props.Compare
import Verif.Props.Crypto
import Verif.Props.Manipulate
import Verif.Props.Warnings
import Verif.Props.Forms
import Verif.Props.Font
import Verif.Props.Encoding
import Verif.Props.Content
import Verif.Props.Encrypted
import Verif.Props.Outline
import Verif.Props.Fallback
import Verif.Props.Builder
import Verif.Props.Image
import Verif.Props.Extract
import Verif.Props.Embed
import Verif.Props.FontNames
import Verif.Props.Standalone
import Verif.Props.XFA
import Verif.Props.XFABuilt
import Verif.Props.Datasets
import Verif.Props.FormsApi
import Verif.Props.Errors
import Verif.Props.PDFStream
import Verif.Props.FormBuilder
import Verif.Props.Directory
import Verif.Props.Report
import Verif.Props.FormXFA
import Verif.Props.Cli
import Verif.Props.XFASets
import Verif.Props.Listed
import Verif.Props.Fill
import Verif.Props.ManipAll
import Verif.Props.Whole
import Verif.Props.Flatten
import Verif.Props.Metadata
import Verif.Props.Crash
import Verif.Props.Collect
import Verif.Props.FillStream
import Verif.Props.XFASalvage
import Verif.Props.ErrorContext
import Verif.Props.EncryptDict
import Verif.Props.Protect
import Verif.Props.Confidential
import Verif.Props.FillChecked
import Verif.Props.OldXRef
import Verif.Props.RebuildStream
import Verif.Props.Symmetry
import Verif.Props.PageEdits
import Verif.Props.XFAEncrypted
import Verif.Props.PDFObject
