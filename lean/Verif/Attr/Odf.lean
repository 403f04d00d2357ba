import Verif.Attr.Model

/-!
# The attributes that ODF has

For each element that carries the attributes of a style or drawing, the attributes that OpenDocument 1.3 part 3 (the
schema) allows on it.  Written down from the standard, not from the code.
-/

set_option autoImplicit false

namespace Verif.Attr.Odf

/-- Attributes of `style:table-cell-properties`. -/
def cellProps : List String :=
  ["fo:background-color", "fo:border", "fo:border-bottom", "fo:border-left", "fo:border-right", "fo:border-top",
   "fo:padding", "fo:padding-bottom", "fo:padding-left", "fo:padding-right", "fo:padding-top", "fo:wrap-option",
   "style:border-line-width", "style:border-line-width-bottom", "style:border-line-width-left",
   "style:border-line-width-right", "style:border-line-width-top", "style:cell-protect", "style:decimal-places",
   "style:diagonal-bl-tr", "style:diagonal-bl-tr-widths", "style:diagonal-tl-br", "style:diagonal-tl-br-widths",
   "style:direction", "style:glyph-orientation-vertical", "style:print-content", "style:repeat-content",
   "style:rotation-align", "style:rotation-angle", "style:shadow", "style:shrink-to-fit",
   "style:text-align-source", "style:vertical-align", "style:writing-mode"]

/-- Attributes of `style:table-column-properties`. -/
def columnProps : List String :=
  ["fo:break-after", "fo:break-before", "style:column-width", "style:rel-column-width",
   "style:use-optimal-column-width"]

/-- Attributes of `style:table-row-properties`. -/
def rowProps : List String :=
  ["fo:background-color", "fo:break-after", "fo:break-before", "fo:keep-together", "style:min-row-height",
   "style:row-height", "style:use-optimal-row-height"]

/-- Attributes of `style:table-properties`. -/
def tableProps : List String :=
  ["fo:background-color", "fo:break-after", "fo:break-before", "fo:keep-with-next", "fo:margin",
   "fo:margin-bottom", "fo:margin-left", "fo:margin-right", "fo:margin-top", "style:may-break-between-rows",
   "style:page-number", "style:rel-width", "style:shadow", "style:width", "style:writing-mode", "table:align",
   "table:border-model", "table:display", "table:tab-color"]

/-- Attributes of `style:paragraph-properties`. -/
def paragraphProps : List String :=
  ["fo:background-color", "fo:border", "fo:border-bottom", "fo:border-left", "fo:border-right", "fo:border-top",
   "fo:break-after", "fo:break-before", "fo:hyphenation-keep", "fo:hyphenation-ladder-count", "fo:keep-together",
   "fo:keep-with-next", "fo:line-height", "fo:margin", "fo:margin-bottom", "fo:margin-left", "fo:margin-right",
   "fo:margin-top", "fo:orphans", "fo:padding", "fo:padding-bottom", "fo:padding-left", "fo:padding-right",
   "fo:padding-top", "fo:text-align", "fo:text-align-last", "fo:text-indent", "fo:widows",
   "style:auto-text-indent", "style:background-transparency", "style:border-line-width",
   "style:border-line-width-bottom", "style:border-line-width-left", "style:border-line-width-right",
   "style:border-line-width-top", "style:contextual-spacing", "style:font-independent-line-spacing",
   "style:join-border", "style:justify-single-word", "style:line-break", "style:line-height-at-least",
   "style:line-spacing", "style:page-number", "style:punctuation-wrap", "style:register-true", "style:shadow",
   "style:snap-to-layout-grid", "style:tab-stop-distance", "style:text-autospace", "style:vertical-align",
   "style:writing-mode", "style:writing-mode-automatic", "text:line-number", "text:number-lines"]

/-- Attributes of `style:text-properties`. -/
def textProps : List String :=
  ["fo:background-color", "fo:color", "fo:country", "fo:font-family", "fo:font-size", "fo:font-style",
   "fo:font-variant", "fo:font-weight", "fo:hyphenate", "fo:hyphenation-push-char-count",
   "fo:hyphenation-remain-char-count", "fo:language", "fo:letter-spacing", "fo:script", "fo:text-shadow",
   "fo:text-transform", "style:country-asian", "style:country-complex", "style:font-charset",
   "style:font-charset-asian", "style:font-charset-complex", "style:font-family-generic",
   "style:font-family-generic-asian", "style:font-family-generic-complex", "style:font-name",
   "style:font-name-asian", "style:font-name-complex", "style:font-pitch", "style:font-pitch-asian",
   "style:font-pitch-complex", "style:font-size-rel", "style:font-size-rel-asian", "style:font-size-rel-complex",
   "style:font-style-name", "style:font-style-name-asian", "style:font-style-name-complex",
   "style:rfc-language-tag", "style:rfc-language-tag-asian", "style:rfc-language-tag-complex",
   "style:font-family-asian", "style:font-family-complex", "style:font-size-asian", "style:font-size-complex",
   "style:font-style-asian", "style:font-style-complex", "style:font-weight-asian", "style:font-weight-complex",
   "style:language-asian", "style:language-complex", "style:script-asian", "style:script-complex",
   "style:font-relief", "style:letter-kerning", "style:script-type", "style:text-blinking", "style:text-combine",
   "style:text-combine-end-char", "style:text-combine-start-char", "style:text-emphasize",
   "style:text-line-through-text", "style:text-line-through-text-style", "style:text-outline",
   "style:text-position", "style:text-rotation-angle", "style:text-rotation-scale", "style:text-scale",
   "style:use-window-font-color", "style:text-line-through-color", "style:text-line-through-mode",
   "style:text-line-through-style", "style:text-line-through-type", "style:text-line-through-width",
   "style:text-overline-color", "style:text-overline-mode", "style:text-overline-style",
   "style:text-overline-type", "style:text-overline-width", "style:text-underline-color",
   "style:text-underline-mode", "style:text-underline-style", "style:text-underline-type",
   "style:text-underline-width", "text:condition", "text:display"]

/-- Attributes of `style:style`. -/
def styleAttrs : List String :=
  ["style:auto-update", "style:class", "style:data-style-name", "style:default-outline-level",
   "style:display-name", "style:family", "style:list-level", "style:list-style-name", "style:master-page-name",
   "style:name", "style:next-style-name", "style:parent-style-name", "style:percentage-data-style-name"]

/-- Attributes of `style:page-layout-properties`. -/
def pageProps : List String :=
  ["fo:background-color", "fo:border", "fo:border-bottom", "fo:border-left", "fo:border-right", "fo:border-top",
   "fo:margin", "fo:margin-bottom", "fo:margin-left", "fo:margin-right", "fo:margin-top", "fo:padding",
   "fo:padding-bottom", "fo:padding-left", "fo:padding-right", "fo:padding-top", "fo:page-height", "fo:page-width",
   "style:border-line-width", "style:border-line-width-bottom", "style:border-line-width-left",
   "style:border-line-width-right", "style:border-line-width-top", "style:first-page-number",
   "style:footnote-max-height", "style:layout-grid-base-height", "style:layout-grid-base-width",
   "style:layout-grid-color", "style:layout-grid-display", "style:layout-grid-lines", "style:layout-grid-mode",
   "style:layout-grid-print", "style:layout-grid-ruby-below", "style:layout-grid-ruby-height",
   "style:layout-grid-snap-to", "style:layout-grid-standard-mode", "style:num-format", "style:num-letter-sync",
   "style:num-prefix", "style:num-suffix", "style:paper-tray-name", "style:print", "style:print-orientation",
   "style:print-page-order", "style:register-truth-ref-style-name", "style:scale-to", "style:scale-to-X",
   "style:scale-to-Y", "style:scale-to-pages", "style:shadow", "style:table-centering", "style:writing-mode"]

/-- Attributes of `style:header-footer-properties`. -/
def headerFooterProps : List String :=
  ["fo:background-color", "fo:border", "fo:border-bottom", "fo:border-left", "fo:border-right", "fo:border-top",
   "fo:margin", "fo:margin-bottom", "fo:margin-left", "fo:margin-right", "fo:margin-top", "fo:min-height",
   "fo:padding", "fo:padding-bottom", "fo:padding-left", "fo:padding-right", "fo:padding-top",
   "style:border-line-width", "style:border-line-width-bottom", "style:border-line-width-left",
   "style:border-line-width-right", "style:border-line-width-top", "style:dynamic-spacing", "style:shadow",
   "svg:height"]

/-- Attributes of `style:font-face`. -/
def fontFaceAttrs : List String :=
  ["style:font-adornments", "style:font-charset", "style:font-family-generic", "style:font-pitch", "style:name",
   "svg:accent-height", "svg:alphabetic", "svg:ascent", "svg:bbox", "svg:cap-height", "svg:descent",
   "svg:font-family", "svg:font-size", "svg:font-stretch", "svg:font-style", "svg:font-variant", "svg:font-weight",
   "svg:hanging", "svg:ideographic", "svg:mathematical", "svg:overline-position", "svg:overline-thickness",
   "svg:panose-1", "svg:slope", "svg:stemh", "svg:stemv", "svg:strikethrough-position",
   "svg:strikethrough-thickness", "svg:underline-position", "svg:underline-thickness", "svg:unicode-range",
   "svg:units-per-em", "svg:v-alphabetic", "svg:v-hanging", "svg:v-ideographic", "svg:v-mathematical",
   "svg:widths", "svg:x-height"]

/-- Attributes of `style:tab-stop`. -/
def tabStopAttrs : List String :=
  ["style:char", "style:leader-color", "style:leader-style", "style:leader-text", "style:leader-text-style",
   "style:leader-type", "style:leader-width", "style:position", "style:type"]

/-- Attributes of `office:annotation`. -/
def annotationAttrs : List String :=
  ["draw:caption-point-x", "draw:caption-point-y", "draw:corner-radius", "draw:name", "office:display",
   "office:name", "draw:class-names", "draw:id", "draw:layer", "draw:style-name", "draw:text-style-name",
   "draw:transform", "draw:z-index", "presentation:class-names", "presentation:style-name", "svg:height",
   "svg:width", "svg:x", "svg:y", "table:end-cell-address", "table:end-x", "table:end-y", "table:table-background",
   "text:anchor-page-number", "text:anchor-type", "xml:id"]

/-- Attributes of `draw:frame`. -/
def frameAttrs : List String :=
  ["draw:caption-id", "draw:copy-of", "draw:name", "presentation:class", "presentation:placeholder",
   "presentation:user-transformed", "style:rel-height", "style:rel-width", "draw:class-names", "draw:id",
   "draw:layer", "draw:style-name", "draw:text-style-name", "draw:transform", "draw:z-index",
   "presentation:class-names", "presentation:style-name", "svg:height", "svg:width", "svg:x", "svg:y",
   "table:end-cell-address", "table:end-x", "table:end-y", "table:table-background", "text:anchor-page-number",
   "text:anchor-type", "xml:id"]

/-- Attributes of `draw:image`. -/
def imageAttrs : List String :=
  ["draw:filter-name", "draw:mime-type", "xlink:actuate", "xlink:href", "xlink:show", "xlink:type", "xml:id"]

/-- The attributes of the element that a map of a style or drawing is written to. -/
def attributes : Kind → Part → List String
  | .cell, .own => cellProps
  | .col, .own => columnProps
  | .row, .own => rowProps
  | .table, .own => tableProps
  | .page, .own => pageProps
  | .headerFooter, .own => headerFooterProps
  | .fontFace, .attr => fontFaceAttrs
  | .tabStop, .attr => tabStopAttrs
  | .annotation, .attr => annotationAttrs
  | .frame, .attr => frameAttrs
  | .image, .attr => imageAttrs
  | .cell, .attr | .col, .attr | .row, .attr | .table, .attr | .paragraph, .attr | .text, .attr | .graphic, .attr
  | .ruby, .attr => styleAttrs
  | .cell, .paragraph | .paragraph, .paragraph | .graphic, .paragraph => paragraphProps
  | .cell, .text | .paragraph, .text | .text, .text | .graphic, .text => textProps
  | _, _ => []

/-- The name of a setter as attributes are spelled: without `set_`, with `-` for `_`. -/
def spelled (setter : String) : Str := (setter.toList.drop 4).map fun c => if c = '_' then '-' else c

/-- What is behind the colon. -/
def localName (a : String) : Str := (a.toList.dropWhile (· ≠ ':')).drop 1

/-- Setters that are not named after their attributes. -/
def otherNames : List (String × List String) :=
  [("set_locale", ["fo:language", "fo:country", "fo:script"]), ("set_font_italic", ["fo:font-style"]),
   ("set_font_bold", ["fo:font-weight"]), ("set_font_attr", ["fo:font-size", "fo:font-weight", "fo:font-style"]),
   ("set_master_page", ["style:master-page-name"]), ("set_next_style", ["style:next-style-name"]),
   ("set_rotation_scale", ["style:text-rotation-scale"]),
   ("set_background_transpareny", ["style:background-transparency"]),
   ("set_vertical_align_para", ["style:vertical-align"]),
   ("set_locale_asian", ["style:language-asian", "style:country-asian", "style:script-asian"]),
   ("set_font_italic_asian", ["style:font-style-asian"]), ("set_font_bold_asian", ["style:font-weight-asian"]),
   ("set_font_attr_asian", ["style:font-size-asian", "style:font-weight-asian", "style:font-style-asian"]),
   ("set_locale_complex", ["style:language-complex", "style:country-complex", "style:script-complex"]),
   ("set_font_italic_complex", ["style:font-style-complex"]),
   ("set_font_bold_complex", ["style:font-weight-complex"]),
   ("set_font_attr_complex", ["style:font-size-complex", "style:font-weight-complex", "style:font-style-complex"]),
   ("set_font_text_outline", ["style:text-outline"]), ("set_col_width", ["style:column-width"]),
   ("set_rel_col_width", ["style:rel-column-width"]),
   ("set_use_optimal_col_width", ["style:use-optimal-column-width"]),
   ("set_parent_style", ["style:parent-style-name"]), ("set_xml_id", ["xml_id"])]

/-- A setter may set an attribute: it is named after it, without or with its prefix, or it is in the list. -/
def Named (setter a : String) : Prop :=
  localName a = spelled setter ∨ (a.toList.map fun c => if c = ':' then '-' else c) = spelled setter
    ∨ ∃ l ∈ otherNames, l.1 = setter ∧ a ∈ l.2

end Verif.Attr.Odf
