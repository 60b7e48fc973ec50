import Verif.Spec.Formats

/-!
# Zip based formats, independently of the model
-/

namespace Fileid.Spec

/-- How a `ContentType` attribute begins. -/
def ctOpen : Bytes := b!"ContentType=\""

/-- `Declares text vs`: the values of the `ContentType` attributes in `text`, in order, are `vs`. A value
reaches from its opening quote to the next quote; after it the rest of the text is looked at in the same way.
An attribute without closing quote has no value. -/
inductive Declares : Bytes → List Bytes → Prop
  | done (text : Bytes) : ¬ Occurs ctOpen text → Declares text []
  | unterminated (gap rest : Bytes) : ¬ Occurs ctOpen gap → 34 ∉ rest → Declares (gap ++ ctOpen ++ rest) []
  | attr (gap value rest : Bytes) (vs : List Bytes) : ¬ Occurs ctOpen gap → 34 ∉ value → Declares rest vs →
      Declares (gap ++ ctOpen ++ value ++ b!"\"" ++ rest) (value :: vs)

/-- `Scans text vs`: the values the program takes from `text`. They differ from those declared where a value is empty:
the first character behind the opening quote always belongs to the value, even if it is the closing quote. -/
inductive Scans : Bytes → List Bytes → Prop
  | done (text : Bytes) : ¬ Occurs ctOpen text → Scans text []
  | unterminated (gap rest : Bytes) : ¬ Occurs ctOpen gap → 34 ∉ rest.drop 1 → Scans (gap ++ ctOpen ++ rest) []
  | attr (gap : Bytes) (c : UInt8) (value rest : Bytes) (vs : List Bytes) : ¬ Occurs ctOpen gap → 34 ∉ value → Scans rest vs →
      Scans (gap ++ ctOpen ++ (c :: value) ++ b!"\"" ++ rest) ((c :: value) :: vs)

/-- An extension with the name shown for it. -/
abbrev Kind := Bytes × Bytes

/-- Entries that mark an archive as a package of a certain kind. -/
def packageMarkers : List (Bytes × Kind) :=
  [(b!"META-INF/MANIFEST.MF", b!"jar", b!"Java Archive"),
   (b!"WEB-INF/web.xml", b!"war", b!"Web Application Java Archive"),
   (b!"META-INF/application.xml", b!"ear", b!"Enterprise Java Archive"),
   (b!"AndroidManifest.xml", b!"apk", b!"Android Application Package"),
   (b!"install.js", b!"xpi", b!"Cross Platform Installer"),
   (b!"install.rdf", b!"xpi", b!"Cross Platform Installer"),
   (b!"AppManifest.xaml", b!"xap", b!"Silverlight Packaged Application"),
   (b!"WMAppManifest.xml", b!"xap", b!"Silverlight Phone Application"),
   (b!"Payload/Application.app", b!"ipa", b!"iOS Application Archive"),
   (b!"imsmanifest.xml", b!"scorm_pif",
    b!"SCORM (Shareable Content Object Reference Model) Content Package")]

/-- The content types of the main parts of Office documents (ECMA-376, MS-OFFMACRO2, XPS) and their usual
extensions. -/
def officeTypes : List (Bytes × Bytes) :=
  [(b!"application/vnd.openxmlformats-officedocument.wordprocessingml.document.main+xml", b!"docx"),
   (b!"application/vnd.openxmlformats-officedocument.wordprocessingml.template.main+xml", b!"dotx"),
   (b!"application/vnd.ms-word.document.macroEnabled.main+xml", b!"docm"),
   (b!"application/vnd.ms-word.template.macroEnabledTemplate.main+xml", b!"dotm"),
   (b!"application/vnd.openxmlformats-officedocument.presentationml.presentation.main+xml", b!"pptx"),
   (b!"application/vnd.openxmlformats-officedocument.presentationml.slideshow.main+xml", b!"ppsx"),
   (b!"application/vnd.openxmlformats-officedocument.presentationml.template.main+xml", b!"potx"),
   (b!"application/vnd.ms-powerpoint.presentation.macroEnabled.main+xml", b!"pptm"),
   (b!"application/vnd.ms-powerpoint.slideshow.macroEnabled.main+xml", b!"ppsm"),
   (b!"application/vnd.ms-powerpoint.template.macroEnabled.main+xml", b!"potm"),
   (b!"application/vnd.ms-powerpoint.addin.macroEnabled.main+xml", b!"ppam"),
   (b!"application/vnd.openxmlformats-officedocument.spreadsheetml.sheet.main+xml", b!"xlsx"),
   (b!"application/vnd.openxmlformats-officedocument.spreadsheetml.template.main+xml", b!"xltx"),
   (b!"application/vnd.ms-excel.sheet.macroEnabled.main+xml", b!"xlsm"),
   (b!"application/vnd.ms-excel.template.macroEnabled.main+xml", b!"xltm"),
   (b!"application/vnd.ms-excel.addin.macroEnabled.main+xml", b!"xlam"),
   (b!"application/vnd.ms-package.xps-fixeddocumentsequence+xml", b!"xps")]

/-- Further part types the program reports with extensions of its own making: binary worksheets and Excel 4
macro sheets. -/
def officePartTypes : List (Bytes × Bytes) :=
  [(b!"application/vnd.ms-excel.worksheet", b!"xlsb"), (b!"application/vnd.ms-excel.main", b!"xlsb"),
   (b!"application/vnd.ms-excel.macrosheet", b!"xlsb_e4m"),
   (b!"application/vnd.ms-excel.macrosheet+xml", b!"xlsm_e4m")]

/-- The MIME types of OpenDocument files and their extensions (OASIS ODF 1.2 part 1, appendix C). -/
def odfTypes : List (Bytes × Bytes) :=
  [(b!"application/vnd.oasis.opendocument.text", b!"odt"),
   (b!"application/vnd.oasis.opendocument.spreadsheet", b!"ods"),
   (b!"application/vnd.oasis.opendocument.presentation", b!"odp"),
   (b!"application/vnd.oasis.opendocument.graphics", b!"odg"),
   (b!"application/vnd.oasis.opendocument.chart", b!"odc"),
   (b!"application/vnd.oasis.opendocument.formula", b!"odf"),
   (b!"application/vnd.oasis.opendocument.image", b!"odi"),
   (b!"application/vnd.oasis.opendocument.text-master", b!"odm"),
   (b!"application/vnd.oasis.opendocument.base", b!"odb"),
   (b!"application/vnd.oasis.opendocument.database", b!"odb"),
   (b!"application/vnd.sun.xml.base", b!"odb"),
   (b!"application/vnd.oasis.opendocument.text-template", b!"ott"),
   (b!"application/vnd.oasis.opendocument.spreadsheet-template", b!"ots"),
   (b!"application/vnd.oasis.opendocument.presentation-template", b!"otp"),
   (b!"application/vnd.oasis.opendocument.graphics-template", b!"otg"),
   (b!"application/vnd.oasis.opendocument.chart-template", b!"otc"),
   (b!"application/vnd.oasis.opendocument.formula-template", b!"otf"),
   (b!"application/vnd.oasis.opendocument.image-template", b!"oti"),
   (b!"application/vnd.oasis.opendocument.text-web", b!"oth")]

/-- Of each extension the first, in order. -/
def firstOfEach : List Kind → List Kind
  | [] => []
  | k :: ks => k :: (firstOfEach ks).filter fun k' => k'.1 ≠ k.1

/-- The content type of a VBA project part. -/
def vbaProjectType : Bytes := b!"application/vnd.ms-office.vbaProject"

end Fileid.Spec
