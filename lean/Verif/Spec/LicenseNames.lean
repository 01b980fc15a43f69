import Verif.Spec.RdfTerms
import Verif.Spec.RdfSays

/-!
# Specification: the license list of the RDF reader

The names of `AllStandardLicenseIDS` (spdx/v2/v2_3/rdf/reader/constants.go:162-268, same in v2_2).
-/

namespace Verif.Spec

/-- The words of a line. -/
def words (l : Str) : List Str :=
  let rec go : Str → Str → List Str
    | [], w => [w.reverse]
    | ' ' :: s, w => w.reverse :: go s []
    | c :: s, w => go s (c :: w)
  go l []

/-- The names of the list. -/
def licenseNames : List Str := [
  g!"0BSD 389-exception AAL Abstyles Adobe-2006 Adobe-Glyph ADSL AFL-1.1 AFL-1.2 AFL-2.0 AFL-2.1 AFL-3.0",
  g!"Afmparse AGPL-1.0-only AGPL-1.0-or-later AGPL-1.0 AGPL-3.0-only AGPL-3.0-or-later AGPL-3.0 Aladdin",
  g!"AMDPLPA AML AMPAS ANTLR-PD Apache-1.0 Apache-1.1 Apache-2.0 APAFML APL-1.0 APSL-1.0 APSL-1.1",
  g!"APSL-1.2 APSL-2.0 Artistic-1.0-cl8 Artistic-1.0-Perl Artistic-1.0 Artistic-2.0",
  g!"Autoconf-exception-2.0 Autoconf-exception-3.0 Bahyph Barr Beerware Bison-exception-2.2",
  g!"BitTorrent-1.0 BitTorrent-1.1 blessing BlueOak-1.0.0 Bootloader-exception Borceux BSD-1-Clause",
  g!"BSD-2-Clause-FreeBSD BSD-2-Clause-NetBSD BSD-2-Clause-Patent BSD-2-Clause-Views BSD-2-Clause",
  g!"BSD-3-Clause-Attribution BSD-3-Clause-Clear BSD-3-Clause-LBNL BSD-3-Clause-No-Nuclear-License-2014",
  g!"BSD-3-Clause-No-Nuclear-License BSD-3-Clause-No-Nuclear-Warranty BSD-3-Clause-Open-MPI BSD-3-Clause",
  g!"BSD-4-Clause-UC BSD-4-Clause BSD-Protection BSD-Source-Code BSL-1.0 bzip2-1.0.5 bzip2-1.0.6",
  g!"CAL-1.0-Combined-Work-Exception CAL-1.0 Caldera CATOSL-1.1 CC-BY-1.0 CC-BY-2.0 CC-BY-2.5",
  g!"CC-BY-3.0-AT CC-BY-3.0 CC-BY-4.0 CC-BY-NC-1.0 CC-BY-NC-2.0 CC-BY-NC-2.5 CC-BY-NC-3.0 CC-BY-NC-4.0",
  g!"CC-BY-NC-ND-1.0 CC-BY-NC-ND-2.0 CC-BY-NC-ND-2.5 CC-BY-NC-ND-3.0-IGO CC-BY-NC-ND-3.0 CC-BY-NC-ND-4.0",
  g!"CC-BY-NC-SA-1.0 CC-BY-NC-SA-2.0 CC-BY-NC-SA-2.5 CC-BY-NC-SA-3.0 CC-BY-NC-SA-4.0 CC-BY-ND-1.0",
  g!"CC-BY-ND-2.0 CC-BY-ND-2.5 CC-BY-ND-3.0 CC-BY-ND-4.0 CC-BY-SA-1.0 CC-BY-SA-2.0 CC-BY-SA-2.5",
  g!"CC-BY-SA-3.0-AT CC-BY-SA-3.0 CC-BY-SA-4.0 CC-PDDC CC0-1.0 CDDL-1.0 CDDL-1.1 CDLA-Permissive-1.0",
  g!"CDLA-Sharing-1.0 CECILL-1.0 CECILL-1.1 CECILL-2.0 CECILL-2.1 CECILL-B CECILL-C CERN-OHL-1.1",
  g!"CERN-OHL-1.2 CERN-OHL-P-2.0 CERN-OHL-S-2.0 CERN-OHL-W-2.0 ClArtistic Classpath-exception-2.0",
  g!"CLISP-exception-2.0 CNRI-Jython CNRI-Python-GPL-Compatible CNRI-Python Condor-1.1",
  g!"copyleft-next-0.3.0 copyleft-next-0.3.1 CPAL-1.0 CPL-1.0 CPOL-1.02 Crossword CrystalStacker",
  g!"CUA-OPL-1.0 Cube curl D-FSL-1.0 diffmark DigiRule-FOSS-exception DOC Dotseqn DSDP dvipdfm ECL-1.0",
  g!"ECL-2.0 eCos-2.0 eCos-exception-2.0 EFL-1.0 EFL-2.0 eGenix Entessa EPICS EPL-1.0 EPL-2.0 ErlPL-1.1",
  g!"etalab-2.0 EUDatagrid EUPL-1.0 EUPL-1.1 EUPL-1.2 Eurosym Fair Fawkes-Runtime-exception",
  g!"FLTK-exception Font-exception-2.0 Frameworx-1.0 FreeImage freertos-exception-2.0 FSFAP FSFUL FSFULLR",
  g!"FTL GCC-exception-2.0 GCC-exception-3.1 GFDL-1.1-invariants-only GFDL-1.1-invariants-or-later",
  g!"GFDL-1.1-no-invariants-only GFDL-1.1-no-invariants-or-later GFDL-1.1-only GFDL-1.1-or-later GFDL-1.1",
  g!"GFDL-1.2-invariants-only GFDL-1.2-invariants-or-later GFDL-1.2-no-invariants-only",
  g!"GFDL-1.2-no-invariants-or-later GFDL-1.2-only GFDL-1.2-or-later GFDL-1.2 GFDL-1.3-invariants-only",
  g!"GFDL-1.3-invariants-or-later GFDL-1.3-no-invariants-only GFDL-1.3-no-invariants-or-later",
  g!"GFDL-1.3-only GFDL-1.3-or-later GFDL-1.3 Giftware GL2PS Glide Glulxe GLWTPL gnu-javamail-exception",
  g!"gnuplot GPL-1.0+ GPL-1.0-only GPL-1.0-or-later GPL-1.0 GPL-2.0+ GPL-2.0-only GPL-2.0-or-later",
  g!"GPL-2.0-with-autoconf-exception GPL-2.0-with-bison-exception GPL-2.0-with-classpath-exception",
  g!"GPL-2.0-with-font-exception GPL-2.0-with-GCC-exception GPL-2.0 GPL-3.0+ GPL-3.0-linking-exception",
  g!"GPL-3.0-linking-source-exception GPL-3.0-only GPL-3.0-or-later GPL-3.0-with-autoconf-exception",
  g!"GPL-3.0-with-GCC-exception GPL-3.0 GPL-CC-1.0 gSOAP-1.3b HaskellReport Hippocratic-2.1",
  g!"HPND-sell-variant HPND i2p-gpl-java-exception IBM-pibs ICU IJG ImageMagick iMatix Imlib2 Info-ZIP",
  g!"Intel-ACPI Intel Interbase-1.0 IPA IPL-1.0 ISC JasPer-2.0 JPNIC JSON LAL-1.2 LAL-1.3 Latex2e",
  g!"Leptonica LGPL-2.0+ LGPL-2.0-only LGPL-2.0-or-later LGPL-2.0 LGPL-2.1+ LGPL-2.1-only",
  g!"LGPL-2.1-or-later LGPL-2.1 LGPL-3.0+ LGPL-3.0-linking-exception LGPL-3.0-only LGPL-3.0-or-later",
  g!"LGPL-3.0 LGPLLR libpng-2.0 Libpng libselinux-1.0 libtiff Libtool-exception licenses LiLiQ-P-1.1",
  g!"LiLiQ-R-1.1 LiLiQ-Rplus-1.1 Linux-OpenIB Linux-syscall-note LLVM-exception LPL-1.0 LPL-1.02 LPPL-1.0",
  g!"LPPL-1.1 LPPL-1.2 LPPL-1.3a LPPL-1.3c LZMA-exception MakeIndex mif-exception MirOS MIT-0",
  g!"MIT-advertising MIT-CMU MIT-enna MIT-feh MIT MITNFA Motosoto mpich2 MPL-1.0 MPL-1.1",
  g!"MPL-2.0-no-copyleft-exception MPL-2.0 MS-PL MS-RL MTLL MulanPSL-1.0 MulanPSL-2.0 Multics Mup",
  g!"NASA-1.3 Naumen NBPL-1.0 NCGL-UK-2.0 NCSA Net-SNMP NetCDF Newsletr NGPL NIST-PD-fallback NIST-PD",
  g!"NLOD-1.0 NLPL Nokia-Qt-exception-1.1 Nokia NOSL Noweb NPL-1.0 NPL-1.1 NPOSL-3.0 NRL NTP-0 NTP Nunit",
  g!"O-UDA-1.0 OCaml-LGPL-linking-exception OCCT-exception-1.0 OCCT-PL OCLC-2.0 ODbL-1.0 ODC-By-1.0",
  g!"OFL-1.0-no-RFN OFL-1.0-RFN OFL-1.0 OFL-1.1-no-RFN OFL-1.1-RFN OFL-1.1 OGC-1.0 OGL-Canada-2.0",
  g!"OGL-UK-1.0 OGL-UK-2.0 OGL-UK-3.0 OGTSL OLDAP-1.1 OLDAP-1.2 OLDAP-1.3 OLDAP-1.4 OLDAP-2.0.1 OLDAP-2.0",
  g!"OLDAP-2.1 OLDAP-2.2.1 OLDAP-2.2.2 OLDAP-2.2 OLDAP-2.3 OLDAP-2.4 OLDAP-2.5 OLDAP-2.6 OLDAP-2.7",
  g!"OLDAP-2.8 OML OpenJDK-assembly-exception-1.0 OpenSSL openvpn-openssl-exception OPL-1.0 OSET-PL-2.1",
  g!"OSL-1.0 OSL-1.1 OSL-2.0 OSL-2.1 OSL-3.0 Parity-6.0.0 Parity-7.0.0 PDDL-1.0 PHP-3.0 PHP-3.01 Plexus",
  g!"PolyForm-Noncommercial-1.0.0 PolyForm-Small-Business-1.0.0 PostgreSQL",
  g!"PS-or-PDF-font-exception-20170817 PSF-2.0 psfrag psutils Python-2.0 Qhull QPL-1.0",
  g!"Qt-GPL-exception-1.0 Qt-LGPL-exception-1.1 Qwt-exception-1.0 Rdisc RHeCos-1.1 RPL-1.1 RPL-1.5",
  g!"RPSL-1.0 RSA-MD RSCPL Ruby SAX-PD Saxpath SCEA Sendmail-8.23 Sendmail SGI-B-1.0 SGI-B-1.1 SGI-B-2.0",
  g!"SHL-0.5 SHL-0.51 SHL-2.0 SHL-2.1 SimPL-2.0 SISSL-1.2 SISSL Sleepycat SMLNJ SMPPL SNIA Spencer-86",
  g!"Spencer-94 Spencer-99 SPL-1.0 SSH-OpenSSH SSH-short SSPL-1.0 StandardML-NJ SugarCRM-1.1.3",
  g!"Swift-exception SWL TAPR-OHL-1.0 TCL TCP-wrappers TMate TORQUE-1.1 TOSL TU-Berlin-1.0 TU-Berlin-2.0",
  g!"u-boot-exception-2.0 UCL-1.0 Unicode-DFS-2015 Unicode-DFS-2016 Unicode-TOU",
  g!"Universal-FOSS-exception-1.0 Unlicense UPL-1.0 Vim VOSTROM VSL-1.0 W3C-19980720 W3C-20150513 W3C",
  g!"Watcom-1.0 Wsuipa WTFPL WxWindows-exception-3.1 wxWindows X11 Xerox XFree86-1.1 xinetd Xnet xpp",
  g!"XSkat YPL-1.0 YPL-1.1 Zed Zend-2.0 Zimbra-1.3 Zimbra-1.4 zlib-acknowledgement Zlib ZPL-1.1 ZPL-2.0",
  g!"ZPL-2.1"].flatMap words

/-- What a node about which nothing else is said is called: `NONE` or `NOASSERTION`, each in two spellings, or a name of
the list at the end of its URI.  The list has the empty name in it. -/
def StandardName (uri id : Str) : Prop :=
  let u := trimSpace uri
  let none_ := u = Rdf.spdxNs ++ g!"NONE" ∨ u = Rdf.spdxNs ++ g!"none"
  let noAssertion := u = Rdf.spdxNs ++ g!"NOASSERTION" ∨ u = Rdf.spdxNs ++ g!"noassertion"
  (none_ ∧ id = g!"NONE") ∨ (noAssertion ∧ id = g!"NOASSERTION") ∨
  (¬ none_ ∧ ¬ noAssertion ∧ Rdf.LastPart u id ∧ (id = [] ∨ id ∈ licenseNames))

end Verif.Spec
